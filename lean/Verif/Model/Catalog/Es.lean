/-!
# The `es` word list of src/words/catalogs/mnemonic.cpp:2084-4137 (generated by tools/gen_words.py)

Each word is the number its UTF-8 bytes spell, most significant byte first.
-/
namespace Verif.Catalog

private def es0 : List Nat := [
  0x61cc816261636f, 0x6162646f6d656e, 0x6162656a61, 0x6162696572746f, 0x61626f6761646f, 0x61626f6e6f, 0x61626f72746f, 0x616272617a6f,
  0x6162726972, 0x616275656c6f, 0x616275736f, 0x616361626172, 0x61636164656d6961, 0x61636365736f, 0x616363696fcc816e, 0x616365697465,
  0x6163656c6761, 0x6163656e746f, 0x61636570746172, 0x61cc816369646f, 0x61636c61726172, 0x61636e65cc81, 0x61636f676572, 0x61636f736f,
  0x61637469766f, 0x6163746f, 0x61637472697a, 0x616374756172, 0x616375646972, 0x6163756572646f, 0x616375736172, 0x61646963746f,
  0x61646d69746972, 0x61646f70746172, 0x61646f726e6f, 0x616475616e61, 0x6164756c746f, 0x6165cc8172656f, 0x61666563746172, 0x61666963696fcc816e,
  0x6166696e6172, 0x616669726d6172, 0x61cc8167696c, 0x616769746172, 0x61676f6e69cc8161, 0x61676f73746f, 0x61676f746172, 0x61677265676172,
  0x616772696f, 0x61677561, 0x616775646f, 0x61cc816775696c61, 0x6167756a61, 0x61686f676f, 0x61686f72726f, 0x61697265,
  0x6169736c6172, 0x616a656472657a, 0x616a656e6f, 0x616a75737465, 0x616c61637261cc816e, 0x616c616d627265, 0x616c61726d61, 0x616c6261,
  0x61cc816c62756d, 0x616c63616c6465, 0x616c646561, 0x616c65677265, 0x616c656a6172, 0x616c65727461, 0x616c657461, 0x616c66696c6572,
  0x616c6761, 0x616c676f646fcc816e, 0x616c6961646f, 0x616c69656e746f, 0x616c6976696f, 0x616c6d61, 0x616c6d656a61, 0x616c6d69cc81626172,
  0x616c746172, 0x616c74657a61, 0x616c7469766f, 0x616c746f, 0x616c74757261, 0x616c756d6e6f, 0x616c7a6172, 0x616d61626c65,
  0x616d616e7465, 0x616d61706f6c61, 0x616d6172676f, 0x616d61736172, 0x61cc816d626172, 0x61cc816d6269746f, 0x616d656e6f, 0x616d69676f,
  0x616d6973746164, 0x616d6f72, 0x616d7061726f, 0x616d706c696f, 0x616e63686f, 0x616e6369616e6f, 0x616e636c61, 0x616e646172,
  0x616e6465cc816e, 0x616e656d6961, 0x61cc816e67756c6f, 0x616e696c6c6f, 0x61cc816e696d6f, 0x616e69cc8173, 0x616e6f746172, 0x616e74656e61,
  0x616e746967756f, 0x616e746f6a6f, 0x616e75616c, 0x616e756c6172, 0x616e756e63696f, 0x616ecc8361646972, 0x616ecc83656a6f, 0x616ecc836f,
  0x617061676172, 0x6170617261746f, 0x6170657469746f, 0x6170696f, 0x61706c69636172, 0x61706f646f, 0x61706f727465, 0x61706f796f]
private def es1 : List Nat := [
  0x617072656e646572, 0x6170726f626172, 0x61707565737461, 0x617075726f, 0x617261646f, 0x6172616ecc8361, 0x61726172, 0x61cc8172626974726f,
  0x61cc8172626f6c, 0x6172627573746f, 0x6172636869766f, 0x6172636f, 0x6172646572, 0x617264696c6c61, 0x617264756f, 0x61cc81726561,
  0x61cc817269646f, 0x6172696573, 0x61726d6f6e69cc8161, 0x61726e65cc8173, 0x61726f6d61, 0x61727061, 0x6172706fcc816e, 0x61727265676c6f,
  0x6172726f7a, 0x617272756761, 0x61727465, 0x61727469737461, 0x617361, 0x617361646f, 0x6173616c746f, 0x617363656e736f,
  0x6173656775726172, 0x6173656f, 0x617365736f72, 0x617369656e746f, 0x6173696c6f, 0x61736973746972, 0x61736e6f, 0x61736f6d62726f,
  0x61cc81737065726f, 0x617374696c6c61, 0x617374726f, 0x61737475746f, 0x6173756d6972, 0x6173756e746f, 0x6174616a6f, 0x617461717565,
  0x61746172, 0x6174656e746f, 0x6174656f, 0x61cc817469636f, 0x61746c657461, 0x61cc81746f6d6f, 0x617472616572, 0x6174726f7a,
  0x617475cc816e, 0x617564617a, 0x617564696f, 0x61756765, 0x61756c61, 0x61756d656e746f, 0x617573656e7465, 0x6175746f72,
  0x6176616c, 0x6176616e6365, 0x617661726f, 0x617665, 0x6176656c6c616e61, 0x6176656e61, 0x617665737472757a, 0x6176696fcc816e,
  0x617669736f, 0x61796572, 0x6179756461, 0x6179756e6f, 0x617a61667261cc816e, 0x617a6172, 0x617a6f7465, 0x617a75cc81636172,
  0x617a75667265, 0x617a756c, 0x62616261, 0x6261626f72, 0x6261636865, 0x62616869cc8161, 0x6261696c65, 0x62616a6172,
  0x62616c616e7a61, 0x62616c636fcc816e, 0x62616c6465, 0x62616d6275cc81, 0x62616e636f, 0x62616e6461, 0x62616ecc836f, 0x6261726261,
  0x626172636f, 0x6261726e697a, 0x626172726f, 0x6261cc817363756c61, 0x626173746fcc816e, 0x626173757261, 0x626174616c6c61, 0x626174657269cc8161,
  0x6261746972, 0x626174757461, 0x626175cc816c, 0x62617a6172, 0x62656265cc81, 0x626562696461, 0x62656c6c6f, 0x6265736172,
  0x6265736f, 0x626573746961, 0x626963686f, 0x6269656e, 0x62696e676f, 0x626c616e636f, 0x626c6f717565, 0x626c757361,
  0x626f61, 0x626f62696e61, 0x626f626f, 0x626f6361, 0x626f63696e61, 0x626f6461, 0x626f64656761, 0x626f696e61]
private def es2 : List Nat := [
  0x626f6c61, 0x626f6c65726f, 0x626f6c7361, 0x626f6d6261, 0x626f6e646164, 0x626f6e69746f, 0x626f6e6f, 0x626f6e7361cc8169,
  0x626f726465, 0x626f72726172, 0x626f73717565, 0x626f7465, 0x626f7469cc816e, 0x626fcc8176656461, 0x626f7a616c, 0x627261766f,
  0x6272617a6f, 0x627265636861, 0x6272657665, 0x6272696c6c6f, 0x6272696e636f, 0x6272697361, 0x62726f6361, 0x62726f6d61,
  0x62726f6e6365, 0x62726f7465, 0x6272756a61, 0x62727573636f, 0x627275746f, 0x627563656f, 0x6275636c65, 0x6275656e6f,
  0x62756579, 0x627566616e6461, 0x6275666fcc816e, 0x6275cc81686f, 0x627569747265, 0x62756c746f, 0x62757262756a61, 0x6275726c61,
  0x627572726f, 0x627573636172, 0x627574616361, 0x62757a6fcc816e, 0x636162616c6c6f, 0x636162657a61, 0x636162696e61, 0x6361627261,
  0x636163616f, 0x63616461cc81766572, 0x636164656e61, 0x63616572, 0x63616665cc81, 0x636169cc816461, 0x6361696d61cc816e, 0x63616a61,
  0x63616a6fcc816e, 0x63616c, 0x63616c616d6172, 0x63616c63696f, 0x63616c646f, 0x63616c69646164, 0x63616c6c65, 0x63616c6d61,
  0x63616c6f72, 0x63616c766f, 0x63616d61, 0x63616d62696f, 0x63616d656c6c6f, 0x63616d696e6f, 0x63616d706f, 0x6361cc816e636572,
  0x63616e64696c, 0x63616e656c61, 0x63616e6775726f, 0x63616e696361, 0x63616e746f, 0x63616ecc8361, 0x63616ecc836fcc816e, 0x63616f6261,
  0x63616f73, 0x636170617a, 0x636170697461cc816e, 0x6361706f7465, 0x636170746172, 0x63617075636861, 0x63617261, 0x636172626fcc816e,
  0x6361cc817263656c, 0x636172657461, 0x6361726761, 0x636172696ecc836f, 0x6361726e65, 0x63617270657461, 0x636172726f, 0x6361727461,
  0x63617361, 0x636173636f, 0x63617365726f, 0x6361737061, 0x636173746f72, 0x6361746f726365, 0x6361747265, 0x63617564616c,
  0x6361757361, 0x63617a6f, 0x6365626f6c6c61, 0x6365646572, 0x636564726f, 0x63656c6461, 0x6365cc816c65627265, 0x63656c6f736f,
  0x6365cc816c756c61, 0x63656d656e746f, 0x63656e697a61, 0x63656e74726f, 0x6365726361, 0x636572646f, 0x636572657a61, 0x6365726f,
  0x636572726172, 0x63657274657a61, 0x6365cc8173706564, 0x636574726f, 0x63686163616c, 0x6368616c65636f, 0x6368616d7075cc81, 0x6368616e636c61]
private def es3 : List Nat := [
  0x6368617061, 0x636861726c61, 0x636869636f, 0x636869737465, 0x636869766f, 0x63686f717565, 0x63686f7a61, 0x6368756c657461,
  0x636875706172, 0x6369636c6fcc816e, 0x636965676f, 0x6369656c6f, 0x6369656e, 0x63696572746f, 0x6369667261, 0x6369676172726f,
  0x63696d61, 0x63696e636f, 0x63696e65, 0x63696e7461, 0x6369707265cc8173, 0x636972636f, 0x63697275656c61, 0x6369736e65,
  0x63697461, 0x636975646164, 0x636c616d6f72, 0x636c616e, 0x636c61726f, 0x636c617365, 0x636c617665, 0x636c69656e7465,
  0x636c696d61, 0x636c69cc816e696361, 0x636f627265, 0x636f6363696fcc816e, 0x636f6368696e6f, 0x636f63696e61, 0x636f636f, 0x636fcc816469676f,
  0x636f646f, 0x636f667265, 0x636f676572, 0x636f68657465, 0x636f6a69cc816e, 0x636f6a6f, 0x636f6c61, 0x636f6c636861,
  0x636f6c6567696f, 0x636f6c676172, 0x636f6c696e61, 0x636f6c6c6172, 0x636f6c6d6f, 0x636f6c756d6e61, 0x636f6d62617465, 0x636f6d6572,
  0x636f6d696461, 0x636fcc816d6f646f, 0x636f6d707261, 0x636f6e6465, 0x636f6e656a6f, 0x636f6e6761, 0x636f6e6f636572, 0x636f6e73656a6f,
  0x636f6e746172, 0x636f7061, 0x636f706961, 0x636f72617a6fcc816e, 0x636f7262617461, 0x636f7263686f, 0x636f72646fcc816e, 0x636f726f6e61,
  0x636f72726572, 0x636f736572, 0x636f736d6f73, 0x636f737461, 0x637261cc816e656f, 0x637261cc81746572, 0x6372656172, 0x637265636572,
  0x63726569cc81646f, 0x6372656d61, 0x637269cc8161, 0x6372696d656e, 0x637269707461, 0x637269736973, 0x63726f6d6f, 0x63726fcc816e696361,
  0x63726f7175657461, 0x637275646f, 0x6372757a, 0x63756164726f, 0x63756172746f, 0x63756174726f, 0x6375626f, 0x637562726972,
  0x63756368617261, 0x6375656c6c6f, 0x6375656e746f, 0x637565726461, 0x637565737461, 0x6375657661, 0x637569646172, 0x63756c65627261,
  0x63756c7061, 0x63756c746f, 0x63756d627265, 0x63756d706c6972, 0x63756e61, 0x63756e657461, 0x63756f7461, 0x6375706fcc816e,
  0x6375cc8170756c61, 0x6375726172, 0x637572696f736f, 0x637572736f, 0x6375727661, 0x6375746973, 0x64616d61, 0x64616e7a61,
  0x646172, 0x646172646f, 0x6461cc8174696c, 0x6465626572, 0x6465cc8162696c, 0x6465cc8163616461, 0x6465636972, 0x6465646f]
private def es4 : List Nat := [
  0x646566656e7361, 0x646566696e6972, 0x64656a6172, 0x64656c6669cc816e, 0x64656c6761646f, 0x64656c69746f, 0x64656d6f7261, 0x64656e736f,
  0x64656e74616c, 0x6465706f727465, 0x6465726563686f, 0x646572726f7461, 0x6465736179756e6f, 0x646573656f, 0x64657366696c65, 0x6465736e75646f,
  0x64657374696e6f, 0x6465737669cc816f, 0x646574616c6c65, 0x646574656e6572, 0x6465756461, 0x6469cc8161, 0x646961626c6f, 0x64696164656d61,
  0x6469616d616e7465, 0x6469616e61, 0x64696172696f, 0x646962756a6f, 0x646963746172, 0x6469656e7465, 0x6469657461, 0x6469657a,
  0x64696669cc8163696c, 0x6469676e6f, 0x64696c656d61, 0x64696c756972, 0x64696e65726f, 0x6469726563746f, 0x64697269676972, 0x646973636f,
  0x646973656ecc836f, 0x6469736672617a, 0x64697661, 0x646976696e6f, 0x646f626c65, 0x646f6365, 0x646f6c6f72, 0x646f6d696e676f,
  0x646f6e, 0x646f6e6172, 0x646f7261646f, 0x646f726d6972, 0x646f72736f, 0x646f73, 0x646f736973, 0x647261676fcc816e,
  0x64726f6761, 0x6475636861, 0x64756461, 0x6475656c6f, 0x6475656ecc836f, 0x64756c6365, 0x6475cc816f, 0x6475717565,
  0x6475726172, 0x647572657a61, 0x6475726f, 0x65cc8162616e6f, 0x656272696f, 0x6563686172, 0x65636f, 0x65637561646f72,
  0x65646164, 0x65646963696fcc816e, 0x656469666963696f, 0x656469746f72, 0x656475636172, 0x65666563746f, 0x65666963617a, 0x656a65,
  0x656a656d706c6f, 0x656c6566616e7465, 0x656c65676972, 0x656c656d656e746f, 0x656c65766172, 0x656c69707365, 0x65cc816c697465, 0x656c69786972,
  0x656c6f67696f, 0x656c75646972, 0x656d6275646f, 0x656d69746972, 0x656d6f63696fcc816e, 0x656d70617465, 0x656d70656ecc836f, 0x656d706c656f,
  0x656d7072657361, 0x656e616e6f, 0x656e636172676f, 0x656e6368756665, 0x656e6369cc8161, 0x656e656d69676f, 0x656e65726f, 0x656e6661646f,
  0x656e6665726d6f, 0x656e67616ecc836f, 0x656e69676d61, 0x656e6c616365, 0x656e6f726d65, 0x656e7265646f, 0x656e7361796f, 0x656e73656ecc836172,
  0x656e7465726f, 0x656e74726172, 0x656e76617365, 0x656e7669cc816f, 0x65cc81706f6361, 0x65717569706f, 0x6572697a6f, 0x657363616c61,
  0x657363656e61, 0x6573636f6c6172, 0x6573637269626972, 0x65736375646f, 0x6573656e636961, 0x657366657261, 0x6573667565727a6f, 0x657370616461]
private def es5 : List Nat := [
  0x657370656a6f, 0x65737069cc8161, 0x6573706f7361, 0x657370756d61, 0x6573717569cc81, 0x6573746172, 0x65737465, 0x657374696c6f,
  0x657374756661, 0x6574617061, 0x657465726e6f, 0x65cc8174696361, 0x65746e6961, 0x657661646972, 0x6576616c756172, 0x6576656e746f,
  0x657669746172, 0x65786163746f, 0x6578616d656e, 0x65786365736f, 0x657863757361, 0x6578656e746f, 0x657869676972, 0x6578696c696f,
  0x65786973746972, 0x65cc817869746f, 0x6578706572746f, 0x6578706c69636172, 0x6578706f6e6572, 0x65787472656d6f, 0x6661cc816272696361, 0x6661cc8162756c61,
  0x66616368616461, 0x6661cc8163696c, 0x666163746f72, 0x6661656e61, 0x66616a61, 0x66616c6461, 0x66616c6c6f, 0x66616c736f,
  0x66616c746172, 0x66616d61, 0x66616d696c6961, 0x66616d6f736f, 0x666172616fcc816e, 0x6661726d61636961, 0x6661726f6c, 0x6661727361,
  0x66617365, 0x666174696761, 0x6661756e61, 0x6661766f72, 0x666178, 0x6665627265726f, 0x6665636861, 0x66656c697a,
  0x66656f, 0x6665726961, 0x6665726f7a, 0x6665cc817274696c, 0x666572766f72, 0x6665737469cc816e, 0x666961626c65, 0x6669616e7a61,
  0x66696172, 0x6669627261, 0x66696363696fcc816e, 0x6669636861, 0x666964656f, 0x666965627265, 0x6669656c, 0x6669657261,
  0x666965737461, 0x666967757261, 0x66696a6172, 0x66696a6f, 0x66696c61, 0x66696c657465, 0x66696c69616c, 0x66696c74726f,
  0x66696e, 0x66696e6361, 0x66696e676972, 0x66696e69746f, 0x6669726d61, 0x666c61636f, 0x666c61757461, 0x666c65636861,
  0x666c6f72, 0x666c6f7461, 0x666c756972, 0x666c756a6f, 0x666c75cc816f72, 0x666f626961, 0x666f6361, 0x666f67617461,
  0x666f676fcc816e, 0x666f6c696f, 0x666f6c6c65746f, 0x666f6e646f, 0x666f726d61, 0x666f72726f, 0x666f7274756e61, 0x666f727a6172,
  0x666f7361, 0x666f746f, 0x6672616361736f, 0x667261cc8167696c, 0x6672616e6a61, 0x6672617365, 0x667261756465, 0x66726569cc8172,
  0x6672656e6f, 0x6672657361, 0x667269cc816f, 0x667269746f, 0x6672757461, 0x667565676f, 0x6675656e7465, 0x667565727a61,
  0x66756761, 0x66756d6172, 0x66756e63696fcc816e, 0x66756e6461, 0x667572676fcc816e, 0x6675726961, 0x667573696c, 0x6675cc8174626f6c]
private def es6 : List Nat := [
  0x66757475726f, 0x676163656c61, 0x6761666173, 0x6761697461, 0x67616a6f, 0x67616c61, 0x67616c657269cc8161, 0x67616c6c6f,
  0x67616d6261, 0x67616e6172, 0x67616e63686f, 0x67616e6761, 0x67616e736f, 0x676172616a65, 0x6761727a61, 0x6761736f6c696e61,
  0x676173746172, 0x6761746f, 0x676176696c61cc816e, 0x67656d656c6f, 0x67656d6972, 0x67656e, 0x6765cc816e65726f, 0x67656e696f,
  0x67656e7465, 0x676572616e696f, 0x676572656e7465, 0x6765726d656e, 0x676573746f, 0x676967616e7465, 0x67696d6e6173696f, 0x6769726172,
  0x6769726f, 0x676c6163696172, 0x676c6f626f, 0x676c6f726961, 0x676f6c, 0x676f6c666f, 0x676f6c6f736f, 0x676f6c7065,
  0x676f6d61, 0x676f72646f, 0x676f72696c61, 0x676f727261, 0x676f7461, 0x676f74656f, 0x676f7a6172, 0x6772616461,
  0x677261cc816669636f, 0x6772616e6f, 0x6772617361, 0x677261746973, 0x6772617665, 0x677269657461, 0x6772696c6c6f, 0x6772697065,
  0x67726973, 0x677269746f, 0x67726f736f72, 0x677275cc8161, 0x67727565736f, 0x6772756d6f, 0x677275706f, 0x6775616e7465,
  0x677561706f, 0x67756172646961, 0x677565727261, 0x677569cc8161, 0x6775696ecc836f, 0x6775696f6e, 0x677569736f, 0x6775697461727261,
  0x677573616e6f, 0x677573746172, 0x6861626572, 0x6861cc8162696c, 0x6861626c6172, 0x6861636572, 0x6861636861, 0x68616461,
  0x68616c6c6172, 0x68616d616361, 0x686172696e61, 0x68617a, 0x68617a616ecc8361, 0x686562696c6c61, 0x6865627261, 0x686563686f,
  0x68656c61646f, 0x68656c696f, 0x68656d627261, 0x6865726972, 0x6865726d616e6f, 0x6865cc81726f65, 0x686572766972, 0x6869656c6f,
  0x68696572726f, 0x6869cc816761646f, 0x68696769656e65, 0x68696a6f, 0x68696d6e6f, 0x686973746f726961, 0x686f6369636f, 0x686f676172,
  0x686f6775657261, 0x686f6a61, 0x686f6d627265, 0x686f6e676f, 0x686f6e6f72, 0x686f6e7261, 0x686f7261, 0x686f726d696761,
  0x686f726e6f, 0x686f7374696c, 0x686f796f, 0x687565636f, 0x6875656c6761, 0x687565727461, 0x687565736f, 0x687565766f,
  0x6875696461, 0x68756972, 0x68756d616e6f, 0x6875cc816d65646f, 0x68756d696c6465, 0x68756d6f, 0x68756e646972, 0x687572616361cc816e]
private def es7 : List Nat := [
  0x687572746f, 0x69636f6e6f, 0x696465616c, 0x6964696f6d61, 0x69cc81646f6c6f, 0x69676c65736961, 0x69676c75cc81, 0x696775616c,
  0x696c6567616c, 0x696c7573696fcc816e, 0x696d6167656e, 0x696d61cc816e, 0x696d69746172, 0x696d706172, 0x696d706572696f, 0x696d706f6e6572,
  0x696d70756c736f, 0x696e636170617a, 0x69cc816e64696365, 0x696e65727465, 0x696e6669656c, 0x696e666f726d65, 0x696e67656e696f, 0x696e6963696f,
  0x696e6d656e736f, 0x696e6d756e65, 0x696e6e61746f, 0x696e736563746f, 0x696e7374616e7465, 0x696e74657265cc8173, 0x69cc816e74696d6f, 0x696e74756972,
  0x696e75cc8174696c, 0x696e766965726e6f, 0x697261, 0x69726973, 0x69726f6e69cc8161, 0x69736c61, 0x69736c6f7465, 0x6a6162616c69cc81,
  0x6a61626fcc816e, 0x6a616d6fcc816e, 0x6a6172616265, 0x6a61726469cc816e, 0x6a61727261, 0x6a61756c61, 0x6a617a6d69cc816e, 0x6a656665,
  0x6a6572696e6761, 0x6a696e657465, 0x6a6f726e616461, 0x6a6f726f6261, 0x6a6f76656e, 0x6a6f7961, 0x6a7565726761, 0x6a7565766573,
  0x6a75657a, 0x6a756761646f72, 0x6a75676f, 0x6a756775657465, 0x6a756963696f, 0x6a756e636f, 0x6a756e676c61, 0x6a756e696f,
  0x6a756e746172, 0x6a75cc817069746572, 0x6a75726172, 0x6a7573746f, 0x6a7576656e696c, 0x6a757a676172, 0x6b696c6f, 0x6b6f616c61,
  0x6c6162696f, 0x6c6163696f, 0x6c61637261, 0x6c61646f, 0x6c6164726fcc816e, 0x6c61676172746f, 0x6c61cc816772696d61, 0x6c6167756e61,
  0x6c6169636f, 0x6c616d6572, 0x6c61cc816d696e61, 0x6c61cc816d70617261, 0x6c616e61, 0x6c616e636861, 0x6c616e676f737461, 0x6c616e7a61,
  0x6c61cc8170697a, 0x6c6172676f, 0x6c61727661, 0x6c61cc817374696d61, 0x6c617461, 0x6c61cc81746578, 0x6c61746972, 0x6c617572656c,
  0x6c61766172, 0x6c617a6f, 0x6c65616c, 0x6c656363696fcc816e, 0x6c65636865, 0x6c6563746f72, 0x6c656572, 0x6c6567696fcc816e,
  0x6c6567756d627265, 0x6c656a616e6f, 0x6c656e677561, 0x6c656e746f, 0x6c656ecc8361, 0x6c656fcc816e, 0x6c656f706172646f, 0x6c6573696fcc816e,
  0x6c6574616c, 0x6c65747261, 0x6c657665, 0x6c6579656e6461, 0x6c69626572746164, 0x6c6962726f, 0x6c69636f72, 0x6c69cc81646572,
  0x6c6964696172, 0x6c69656e7a6f, 0x6c696761, 0x6c696765726f, 0x6c696d61, 0x6c69cc816d697465, 0x6c696d6fcc816e, 0x6c696d70696f]
private def es8 : List Nat := [
  0x6c696e6365, 0x6c696e646f, 0x6c69cc816e6561, 0x6c696e676f7465, 0x6c696e6f, 0x6c696e7465726e61, 0x6c69cc81717569646f, 0x6c69736f,
  0x6c69737461, 0x6c6974657261, 0x6c6974696f, 0x6c6974726f, 0x6c6c616761, 0x6c6c616d61, 0x6c6c616e746f, 0x6c6c617665,
  0x6c6c65676172, 0x6c6c656e6172, 0x6c6c65766172, 0x6c6c6f726172, 0x6c6c6f766572, 0x6c6c75766961, 0x6c6f626f, 0x6c6f63696fcc816e,
  0x6c6f636f, 0x6c6f63757261, 0x6c6fcc8167696361, 0x6c6f67726f, 0x6c6f6d6272697a, 0x6c6f6d6f, 0x6c6f6e6a61, 0x6c6f7465,
  0x6c75636861, 0x6c75636972, 0x6c75676172, 0x6c756a6f, 0x6c756e61, 0x6c756e6573, 0x6c757061, 0x6c757374726f,
  0x6c75746f, 0x6c757a, 0x6d6163657461, 0x6d6163686f, 0x6d6164657261, 0x6d61647265, 0x6d616475726f, 0x6d61657374726f,
  0x6d61666961, 0x6d61676961, 0x6d61676f, 0x6d6169cc817a, 0x6d616c646164, 0x6d616c657461, 0x6d616c6c61, 0x6d616c6f,
  0x6d616d61cc81, 0x6d616d626f, 0x6d616d7574, 0x6d616e636f, 0x6d616e646f, 0x6d616e656a6172, 0x6d616e6761, 0x6d616e69717569cc81,
  0x6d616e6a6172, 0x6d616e6f, 0x6d616e736f, 0x6d616e7461, 0x6d616ecc83616e61, 0x6d617061, 0x6d61cc817175696e61, 0x6d6172,
  0x6d6172636f, 0x6d61726561, 0x6d617266696c, 0x6d617267656e, 0x6d617269646f, 0x6d61cc81726d6f6c, 0x6d6172726fcc816e, 0x6d6172746573,
  0x6d61727a6f, 0x6d617361, 0x6d61cc817363617261, 0x6d617369766f, 0x6d61746172, 0x6d617465726961, 0x6d6174697a, 0x6d617472697a,
  0x6d61cc8178696d6f, 0x6d61796f72, 0x6d617a6f726361, 0x6d65636861, 0x6d6564616c6c61, 0x6d6564696f, 0x6d65cc8164756c61, 0x6d656a696c6c61,
  0x6d656a6f72, 0x6d656c656e61, 0x6d656c6fcc816e, 0x6d656d6f726961, 0x6d656e6f72, 0x6d656e73616a65, 0x6d656e7465, 0x6d656e75cc81,
  0x6d65726361646f, 0x6d6572656e677565, 0x6d65cc817269746f, 0x6d6573, 0x6d65736fcc816e, 0x6d657461, 0x6d65746572, 0x6d65cc81746f646f,
  0x6d6574726f, 0x6d657a636c61, 0x6d6965646f, 0x6d69656c, 0x6d69656d62726f, 0x6d696761, 0x6d696c, 0x6d696c6167726f,
  0x6d696c69746172, 0x6d696c6c6fcc816e, 0x6d696d6f, 0x6d696e61, 0x6d696e65726f, 0x6d69cc816e696d6f, 0x6d696e75746f, 0x6d696f7065]
private def es9 : List Nat := [
  0x6d69726172, 0x6d697361, 0x6d697365726961, 0x6d6973696c, 0x6d69736d6f, 0x6d69746164, 0x6d69746f, 0x6d6f6368696c61,
  0x6d6f63696fcc816e, 0x6d6f6461, 0x6d6f64656c6f, 0x6d6f686f, 0x6d6f6a6172, 0x6d6f6c6465, 0x6d6f6c6572, 0x6d6f6c696e6f,
  0x6d6f6d656e746f, 0x6d6f6d6961, 0x6d6f6e61726361, 0x6d6f6e656461, 0x6d6f6e6a61, 0x6d6f6e746f, 0x6d6f6ecc836f, 0x6d6f72616461,
  0x6d6f72646572, 0x6d6f72656e6f, 0x6d6f726972, 0x6d6f72726f, 0x6d6f727361, 0x6d6f7274616c, 0x6d6f736361, 0x6d6f7374726172,
  0x6d6f7469766f, 0x6d6f766572, 0x6d6fcc8176696c, 0x6d6f7a6f, 0x6d7563686f, 0x6d75646172, 0x6d7565626c65, 0x6d75656c61,
  0x6d7565727465, 0x6d756573747261, 0x6d75677265, 0x6d756a6572, 0x6d756c61, 0x6d756c657461, 0x6d756c7461, 0x6d756e646f,
  0x6d756ecc83656361, 0x6d7572616c, 0x6d75726f, 0x6d75cc817363756c6f, 0x6d7573656f, 0x6d7573676f, 0x6d75cc8173696361, 0x6d75736c6f,
  0x6e61cc81636172, 0x6e6163696fcc816e, 0x6e61646172, 0x6e61697065, 0x6e6172616e6a61, 0x6e6172697a, 0x6e6172726172, 0x6e6173616c,
  0x6e6174616c, 0x6e617469766f, 0x6e61747572616c, 0x6e61cc8175736561, 0x6e6176616c, 0x6e617665, 0x6e617669646164, 0x6e6563696f,
  0x6e65cc8163746172, 0x6e65676172, 0x6e65676f63696f, 0x6e6567726f, 0x6e656fcc816e, 0x6e657276696f, 0x6e65746f, 0x6e657574726f,
  0x6e65766172, 0x6e6576657261, 0x6e6963686f, 0x6e69646f, 0x6e6965626c61, 0x6e6965746f, 0x6e696ecc83657a, 0x6e696ecc836f,
  0x6e69cc817469646f, 0x6e6976656c, 0x6e6f626c657a61, 0x6e6f636865, 0x6e6fcc816d696e61, 0x6e6f726961, 0x6e6f726d61, 0x6e6f727465,
  0x6e6f7461, 0x6e6f7469636961, 0x6e6f7661746f, 0x6e6f76656c61, 0x6e6f76696f, 0x6e756265, 0x6e756361, 0x6e75cc81636c656f,
  0x6e7564696c6c6f, 0x6e75646f, 0x6e75657261, 0x6e75657665, 0x6e75657a, 0x6e756c6f, 0x6e75cc816d65726f, 0x6e7574726961,
  0x6f61736973, 0x6f6265736f, 0x6f626973706f, 0x6f626a65746f, 0x6f627261, 0x6f627265726f, 0x6f62736572766172, 0x6f6274656e6572,
  0x6f6276696f, 0x6f6361, 0x6f6361736f, 0x6f6365cc81616e6f, 0x6f6368656e7461, 0x6f63686f, 0x6f63696f, 0x6f637265]
private def es10 : List Nat := [
  0x6f637461766f, 0x6f637475627265, 0x6f63756c746f, 0x6f6375706172, 0x6f637572726972, 0x6f64696172, 0x6f64696f, 0x6f6469736561,
  0x6f65737465, 0x6f66656e7361, 0x6f6665727461, 0x6f666963696f, 0x6f667265636572, 0x6f67726f, 0x6f69cc81646f, 0x6f69cc8172,
  0x6f6a6f, 0x6f6c61, 0x6f6c65616461, 0x6f6c6661746f, 0x6f6c69766f, 0x6f6c6c61, 0x6f6c6d6f, 0x6f6c6f72,
  0x6f6c7669646f, 0x6f6d626c69676f, 0x6f6e6461, 0x6f6e7a61, 0x6f7061636f, 0x6f7063696fcc816e, 0x6fcc8170657261, 0x6f70696e6172,
  0x6f706f6e6572, 0x6f70746172, 0x6fcc817074696361, 0x6f70756573746f, 0x6f726163696fcc816e, 0x6f7261646f72, 0x6f72616c, 0x6fcc817262697461,
  0x6f726361, 0x6f7264656e, 0x6f72656a61, 0x6fcc817267616e6f, 0x6f726769cc8161, 0x6f7267756c6c6f, 0x6f7269656e7465, 0x6f726967656e,
  0x6f72696c6c61, 0x6f726f, 0x6f72717565737461, 0x6f72756761, 0x6f73616469cc8161, 0x6f736375726f, 0x6f73657a6e6f, 0x6f736f,
  0x6f73747261, 0x6f746f6ecc836f, 0x6f74726f, 0x6f76656a61, 0x6fcc8176756c6f, 0x6fcc817869646f, 0x6f7869cc8167656e6f, 0x6f79656e7465,
  0x6f7a6f6e6f, 0x706163746f, 0x7061647265, 0x7061656c6c61, 0x7061cc8167696e61, 0x7061676f, 0x706169cc8173, 0x7061cc816a61726f,
  0x70616c61627261, 0x70616c636f, 0x70616c657461, 0x7061cc816c69646f, 0x70616c6d61, 0x70616c6f6d61, 0x70616c706172, 0x70616e,
  0x70616e616c, 0x7061cc816e69636f, 0x70616e74657261, 0x70616ecc8375656c6f, 0x70617061cc81, 0x706170656c, 0x706170696c6c61, 0x70617175657465,
  0x7061726172, 0x70617263656c61, 0x7061726564, 0x7061726972, 0x7061726f, 0x7061cc81727061646f, 0x706172717565, 0x7061cc81727261666f,
  0x7061727465, 0x7061736172, 0x706173656f, 0x706173696fcc816e, 0x7061736f, 0x7061737461, 0x70617461, 0x706174696f,
  0x706174726961, 0x7061757361, 0x7061757461, 0x7061766f, 0x70617961736f, 0x706561746fcc816e, 0x70656361646f, 0x706563657261,
  0x706563686f, 0x706564616c, 0x7065646972, 0x7065676172, 0x7065696e65, 0x70656c6172, 0x70656c64616ecc836f, 0x70656c6561,
  0x70656c6967726f, 0x70656c6c656a6f, 0x70656c6f, 0x70656c756361, 0x70656e61, 0x70656e736172, 0x70656ecc836fcc816e, 0x70656fcc816e]
private def es11 : List Nat := [
  0x70656f72, 0x706570696e6f, 0x70657175656ecc836f, 0x70657261, 0x706572636861, 0x706572646572, 0x706572657a61, 0x70657266696c,
  0x70657269636f, 0x7065726c61, 0x7065726d69736f, 0x706572726f, 0x706572736f6e61, 0x70657361, 0x7065736361, 0x7065cc8173696d6f,
  0x70657374616ecc8361, 0x7065cc8174616c6f, 0x706574726fcc816c656f, 0x70657a, 0x70657a756ecc8361, 0x7069636172, 0x706963686fcc816e, 0x706965,
  0x706965647261, 0x706965726e61, 0x7069657a61, 0x70696a616d61, 0x70696c6172, 0x70696c6f746f, 0x70696d69656e7461, 0x70696e6f,
  0x70696e746f72, 0x70696e7a61, 0x70696ecc8361, 0x70696f6a6f, 0x70697061, 0x706972617461, 0x7069736172, 0x70697363696e61,
  0x7069736f, 0x7069737461, 0x7069746fcc816e, 0x70697a6361, 0x706c616361, 0x706c616e, 0x706c617461, 0x706c617961,
  0x706c617a61, 0x706c6569746f, 0x706c656e6f, 0x706c6f6d6f, 0x706c756d61, 0x706c7572616c, 0x706f627265, 0x706f636f,
  0x706f646572, 0x706f64696f, 0x706f656d61, 0x706f657369cc8161, 0x706f657461, 0x706f6c656e, 0x706f6c696369cc8161, 0x706f6c6c6f,
  0x706f6c766f, 0x706f6d616461, 0x706f6d656c6f, 0x706f6d6f, 0x706f6d7061, 0x706f6e6572, 0x706f7263696fcc816e, 0x706f7274616c,
  0x706f73616461, 0x706f73656572, 0x706f7369626c65, 0x706f737465, 0x706f74656e636961, 0x706f74726f, 0x706f7a6f, 0x707261646f,
  0x707265636f7a, 0x70726567756e7461, 0x7072656d696f, 0x7072656e7361, 0x707265736f, 0x70726576696f, 0x7072696d6f, 0x707269cc816e63697065,
  0x70726973696fcc816e, 0x707269766172, 0x70726f61, 0x70726f626172, 0x70726f6365736f, 0x70726f647563746f, 0x70726f657a61, 0x70726f6665736f72,
  0x70726f6772616d61, 0x70726f6c65, 0x70726f6d657361, 0x70726f6e746f, 0x70726f70696f, 0x70726fcc8178696d6f, 0x707275656261, 0x7075cc81626c69636f,
  0x7075636865726f, 0x7075646f72, 0x707565626c6f, 0x707565727461, 0x70756573746f, 0x70756c6761, 0x70756c6972, 0x70756c6d6fcc816e,
  0x70756c706f, 0x70756c736f, 0x70756d61, 0x70756e746f, 0x70756ecc83616c, 0x70756ecc836f, 0x70757061, 0x707570696c61,
  0x70757265cc81, 0x717565646172, 0x7175656a61, 0x7175656d6172, 0x717565726572, 0x717565736f, 0x71756965746f, 0x717569cc816d696361]
private def es12 : List Nat := [
  0x7175696e6365, 0x717569746172, 0x7261cc8162616e6f, 0x7261626961, 0x7261626f, 0x726163696fcc816e, 0x7261646963616c, 0x726169cc817a,
  0x72616d61, 0x72616d7061, 0x72616e63686f, 0x72616e676f, 0x726170617a, 0x7261cc817069646f, 0x726170746f, 0x726173676f,
  0x7261737061, 0x7261746f, 0x7261796f, 0x72617a61, 0x72617a6fcc816e, 0x7265616363696fcc816e, 0x7265616c69646164, 0x726562616ecc836f,
  0x7265626f7465, 0x726563616572, 0x726563657461, 0x72656368617a6f, 0x7265636f676572, 0x72656372656f, 0x726563746f, 0x7265637572736f,
  0x726564, 0x7265646f6e646f, 0x72656475636972, 0x7265666c656a6f, 0x7265666f726d61, 0x7265667261cc816e, 0x7265667567696f, 0x726567616c6f,
  0x7265676972, 0x7265676c61, 0x7265677265736f, 0x72656865cc816e, 0x7265696e6f, 0x726569cc8172, 0x72656a61, 0x72656c61746f,
  0x72656c65766f, 0x72656c69657665, 0x72656c6c656e6f, 0x72656c6f6a, 0x72656d6172, 0x72656d6564696f, 0x72656d6f, 0x72656e636f72,
  0x72656e646972, 0x72656e7461, 0x7265706172746f, 0x72657065746972, 0x7265706f736f, 0x72657074696c, 0x726573, 0x72657363617465,
  0x726573696e61, 0x7265737065746f, 0x726573746f, 0x726573756d656e, 0x72657469726f, 0x7265746f726e6f, 0x7265747261746f, 0x7265756e6972,
  0x72657665cc8173, 0x72657669737461, 0x726579, 0x72657a6172, 0x7269636f, 0x726965676f, 0x7269656e6461, 0x72696573676f,
  0x72696661, 0x7269cc816769646f, 0x7269676f72, 0x72696e636fcc816e, 0x72696ecc836fcc816e, 0x7269cc816f, 0x72697175657a61, 0x72697361,
  0x7269746d6f, 0x7269746f, 0x72697a6f, 0x726f626c65, 0x726f6365, 0x726f63696172, 0x726f646172, 0x726f64656f,
  0x726f64696c6c61, 0x726f6572, 0x726f6a697a6f, 0x726f6a6f, 0x726f6d65726f, 0x726f6d706572, 0x726f6e, 0x726f6e636f,
  0x726f6e6461, 0x726f7061, 0x726f7065726f, 0x726f7361, 0x726f736361, 0x726f7374726f, 0x726f746172, 0x72756269cc81,
  0x7275626f72, 0x7275646f, 0x7275656461, 0x7275676972, 0x727569646f, 0x7275696e61, 0x72756c657461, 0x72756c6f,
  0x72756d626f, 0x72756d6f72, 0x72757074757261, 0x72757461, 0x727574696e61, 0x7361cc816261646f, 0x7361626572, 0x736162696f]
private def es13 : List Nat := [
  0x7361626c65, 0x7361636172, 0x736167617a, 0x7361677261646f, 0x73616c61, 0x73616c646f, 0x73616c65726f, 0x73616c6972,
  0x73616c6d6fcc816e, 0x73616c6fcc816e, 0x73616c7361, 0x73616c746f, 0x73616c7564, 0x73616c766172, 0x73616d6261, 0x73616e63696fcc816e,
  0x73616e6469cc8161, 0x73616e656172, 0x73616e677265, 0x73616e69646164, 0x73616e6f, 0x73616e746f, 0x7361706f, 0x7361717565,
  0x73617264696e61, 0x7361727465cc816e, 0x736173747265, 0x73617461cc816e, 0x7361756e61, 0x7361786f666fcc816e, 0x73656363696fcc816e, 0x7365636f,
  0x7365637265746f, 0x7365637461, 0x736564, 0x736567756972, 0x73656973, 0x73656c6c6f, 0x73656c7661, 0x73656d616e61,
  0x73656d696c6c61, 0x73656e6461, 0x73656e736f72, 0x73656ecc83616c, 0x73656ecc836f72, 0x73657061726172, 0x7365706961, 0x7365717569cc8161,
  0x736572, 0x7365726965, 0x7365726d6fcc816e, 0x736572766972, 0x736573656e7461, 0x736573696fcc816e, 0x73657461, 0x736574656e7461,
  0x73657665726f, 0x7365786f, 0x736578746f, 0x7369647261, 0x736965737461, 0x7369657465, 0x7369676c6f, 0x7369676e6f,
  0x7369cc816c616261, 0x73696c626172, 0x73696c656e63696f, 0x73696c6c61, 0x7369cc816d626f6c6f, 0x73696d696f, 0x736972656e61, 0x73697374656d61,
  0x736974696f, 0x736974756172, 0x736f627265, 0x736f63696f, 0x736f64696f, 0x736f6c, 0x736f6c617061, 0x736f6c6461646f,
  0x736f6c65646164, 0x736fcc816c69646f, 0x736f6c746172, 0x736f6c7563696fcc816e, 0x736f6d627261, 0x736f6e64656f, 0x736f6e69646f, 0x736f6e6f726f,
  0x736f6e72697361, 0x736f7061, 0x736f706c6172, 0x736f706f727465, 0x736f72646f, 0x736f727072657361, 0x736f7274656f, 0x736f737465cc816e,
  0x736fcc8174616e6f, 0x7375617665, 0x7375626972, 0x73756365736f, 0x7375646f72, 0x737565677261, 0x7375656c6f, 0x7375656ecc836f,
  0x737565727465, 0x737566726972, 0x73756a65746f, 0x73756c7461cc816e, 0x73756d6172, 0x73757065726172, 0x7375706c6972, 0x7375706f6e6572,
  0x73757072656d6f, 0x737572, 0x737572636f, 0x737572656ecc836f, 0x737572676972, 0x737573746f, 0x737574696c, 0x74616261636f,
  0x74616269717565, 0x7461626c61, 0x74616275cc81, 0x7461636f, 0x746163746f, 0x74616a6f, 0x74616c6172, 0x74616c636f]
private def es14 : List Nat := [
  0x74616c656e746f, 0x74616c6c61, 0x74616c6fcc816e, 0x74616d616ecc836f, 0x74616d626f72, 0x74616e676f, 0x74616e717565, 0x74617061,
  0x746170657465, 0x7461706961, 0x7461706fcc816e, 0x74617175696c6c61, 0x7461726465, 0x7461726561, 0x746172696661, 0x7461726a657461,
  0x7461726f74, 0x746172726f, 0x7461727461, 0x74617475616a65, 0x746175726f, 0x74617a61, 0x74617a6fcc816e, 0x74656174726f,
  0x746563686f, 0x7465636c61, 0x7465cc81636e696361, 0x74656a61646f, 0x74656a6572, 0x74656a69646f, 0x74656c61, 0x74656c65cc81666f6e6f,
  0x74656d61, 0x74656d6f72, 0x74656d706c6f, 0x74656e617a, 0x74656e646572, 0x74656e6572, 0x74656e6973, 0x74656e736f,
  0x74656f7269cc8161, 0x74657261706961, 0x746572636f, 0x7465cc81726d696e6f, 0x7465726e757261, 0x746572726f72, 0x7465736973, 0x7465736f726f,
  0x7465737469676f, 0x746574657261, 0x746578746f, 0x74657a, 0x746962696f, 0x74696275726fcc816e, 0x7469656d706f, 0x7469656e6461,
  0x746965727261, 0x746965736f, 0x7469677265, 0x74696a657261, 0x74696c6465, 0x74696d627265, 0x7469cc816d69646f, 0x74696d6f,
  0x74696e7461, 0x7469cc816f, 0x7469cc817069636f, 0x7469706f, 0x74697261, 0x7469726fcc816e, 0x74697461cc816e, 0x7469cc8174657265,
  0x7469cc8174756c6f, 0x74697a61, 0x746f616c6c61, 0x746f62696c6c6f, 0x746f636172, 0x746f63696e6f, 0x746f646f, 0x746f6761,
  0x746f6c646f, 0x746f6d6172, 0x746f6e6f, 0x746f6e746f, 0x746f706172, 0x746f7065, 0x746f717565, 0x746fcc81726178,
  0x746f7265726f, 0x746f726d656e7461, 0x746f726e656f, 0x746f726f, 0x746f727065646f, 0x746f727265, 0x746f72736f, 0x746f7274756761,
  0x746f73, 0x746f73636f, 0x746f736572, 0x746fcc817869636f, 0x74726162616a6f, 0x74726163746f72, 0x7472616572, 0x747261cc816669636f,
  0x747261676f, 0x7472616a65, 0x7472616d6f, 0x7472616e6365, 0x747261746f, 0x747261756d61, 0x7472617a6172, 0x747265cc81626f6c,
  0x747265677561, 0x747265696e7461, 0x7472656e, 0x747265706172, 0x74726573, 0x7472696275, 0x747269676f, 0x7472697061,
  0x747269737465, 0x747269756e666f, 0x74726f66656f, 0x74726f6d7061, 0x74726f6e636f, 0x74726f7061, 0x74726f7465, 0x74726f7a6f]
private def es15 : List Nat := [
  0x747275636f, 0x747275656e6f, 0x7472756661, 0x747562657269cc8161, 0x7475626f, 0x74756572746f, 0x74756d6261, 0x74756d6f72,
  0x7475cc816e656c, 0x7475cc816e696361, 0x74757262696e61, 0x74757269736d6f, 0x7475726e6f, 0x7475746f72, 0x756269636172, 0x75cc816c63657261,
  0x756d6272616c, 0x756e69646164, 0x756e6972, 0x756e69766572736f, 0x756e6f, 0x756e746172, 0x756ecc8361, 0x757262616e6f,
  0x75726265, 0x757267656e7465, 0x75726e61, 0x75736172, 0x7573756172696f, 0x75cc8174696c, 0x75746f7069cc8161, 0x757661,
  0x76616361, 0x76616369cc816f, 0x766163756e61, 0x7661676172, 0x7661676f, 0x7661696e61, 0x76616a696c6c61, 0x76616c65,
  0x7661cc816c69646f, 0x76616c6c65, 0x76616c6f72, 0x7661cc816c76756c61, 0x76616d7069726f, 0x76617261, 0x766172696172, 0x7661726fcc816e,
  0x7661736f, 0x766563696e6f, 0x766563746f72, 0x76656869cc8163756c6f, 0x7665696e7465, 0x76656a657a, 0x76656c61, 0x76656c65726f,
  0x76656c6f7a, 0x76656e61, 0x76656e636572, 0x76656e6461, 0x76656e656e6f, 0x76656e676172, 0x76656e6972, 0x76656e7461,
  0x76656e7573, 0x766572, 0x766572616e6f, 0x766572626f, 0x7665726465, 0x766572656461, 0x7665726a61, 0x766572736f,
  0x766572746572, 0x7669cc8161, 0x7669616a65, 0x766962726172, 0x766963696f, 0x7669cc816374696d61, 0x76696461, 0x7669cc8164656f,
  0x76696472696f, 0x7669656a6f, 0x766965726e6573, 0x7669676f72, 0x76696c, 0x76696c6c61, 0x76696e61677265, 0x76696e6f,
  0x76696ecc8365646f, 0x76696f6c69cc816e, 0x766972616c, 0x766972676f, 0x766972747564, 0x7669736f72, 0x7669cc817370657261, 0x7669737461,
  0x766974616d696e61, 0x766975646f, 0x766976617a, 0x76697665726f, 0x7669766972, 0x7669766f, 0x766f6c6361cc816e, 0x766f6c756d656e,
  0x766f6c766572, 0x766f72617a, 0x766f746172, 0x766f746f, 0x766f7a, 0x7675656c6f, 0x76756c676172, 0x7961636572,
  0x79617465, 0x7965677561, 0x79656d61, 0x7965726e6f, 0x7965736f, 0x796f646f, 0x796f6761, 0x796f677572,
  0x7a616669726f, 0x7a616e6a61, 0x7a617061746f, 0x7a61727a61, 0x7a6f6e61, 0x7a6f72726f, 0x7a756d6f, 0x7a7572646f]

/-- Words 2048, src/words/catalogs/mnemonic.cpp:2084-4137. -/
def es : List Nat :=
  (es0 ++ (es1 ++ (es2 ++ (es3 ++ (es4 ++ (es5 ++ (es6 ++ (es7 ++ (es8 ++ (es9 ++ (es10 ++ (es11 ++ (es12 ++ (es13 ++ (es14 ++ (es15))))))))))))))))

end Verif.Catalog
