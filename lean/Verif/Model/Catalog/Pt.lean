/-!
# The `pt` word list of src/words/catalogs/mnemonic.cpp:10304-12357 (generated by tools/gen_words.py)

Each word is the number its UTF-8 bytes spell, most significant byte first.
-/
namespace Verif.Catalog

private def pt0 : List Nat := [
  0x61626163617465, 0x61626169786f, 0x6162616c6172, 0x616261746572, 0x616264757a6972, 0x6162656c6861, 0x61626572746f, 0x616269736d6f,
  0x61626f746f6172, 0x616272616e676572, 0x6162726576696172, 0x61627269676172, 0x6162727570746f, 0x616273696e746f, 0x6162736f6c75746f, 0x6162737572646f,
  0x616275747265, 0x6163616261646f, 0x6163616c6d6172, 0x6163616d706172, 0x6163616e686172, 0x616361736f, 0x61636569746172, 0x6163656c65726172,
  0x6163656e6172, 0x61636572766f, 0x61636573736172, 0x616365746f6e61, 0x61636861746172, 0x61636964657a, 0x6163696d61, 0x6163696f6e61646f,
  0x61636972726172, 0x61636c616d6172, 0x61636c697665, 0x61636f6c68696461, 0x61636f6d6f646172, 0x61636f706c6172, 0x61636f72646172, 0x6163756d756c6172,
  0x6163757361646f72, 0x61646170746172, 0x6164656761, 0x6164656e74726f, 0x61646570746f, 0x61646571756172, 0x61646572656e7465, 0x6164657369766f,
  0x6164657573, 0x616469616e7465, 0x6164697469766f, 0x61646a657469766f, 0x61646a756e746f, 0x61646d69726172, 0x61646f726172, 0x6164717569726972,
  0x616475626f, 0x6164766572736f, 0x6164766f6761646f, 0x6165726f6e617665, 0x61666173746172, 0x616665726972, 0x6166657469766f, 0x6166696e61646f72,
  0x61666976656c6172, 0x61666c69746f, 0x61666c75656e7465, 0x6166726f6e746172, 0x61676163686172, 0x61676172726172, 0x61676173616c686f, 0x6167656e63696172,
  0x6167696c697a6172, 0x6167696f7461, 0x6167697461646f, 0x61676f7261, 0x61677261646172, 0x61677265737465, 0x61677275706172, 0x6167756172646172,
  0x6167756c6861, 0x616a6f656c686172, 0x616a75646172, 0x616a7573746172, 0x616c616d656461, 0x616c61726d65, 0x616c617374726172, 0x616c6176616e6361,
  0x616c626572677565, 0x616c62696e6f, 0x616c6361747261, 0x616c64656961, 0x616c656372696d, 0x616c6567726961, 0x616c6572746172, 0x616c66616365,
  0x616c66696e657465, 0x616c67756d, 0x616c6865696f, 0x616c696172, 0x616c6963617465, 0x616c69656e6172, 0x616c696e686172, 0x616c6976696172,
  0x616c6d6f66616461, 0x616c6f636172, 0x616c7069737465, 0x616c7465726172, 0x616c746974756465, 0x616c7563696e6172, 0x616c75676172, 0x616c756e6f,
  0x616c757369766f, 0x616c766f, 0x616d6163696172, 0x616d61646f72, 0x616d6172656c6f, 0x616d6173736172, 0x616d626173, 0x616d6269656e7465,
  0x616d65697861, 0x616d656e697a6172, 0x616d69646f, 0x616d6973746f736f, 0x616d697a616465, 0x616d6f6c61646f72, 0x616d6f6e746f6172, 0x616d6f726f736f]
private def pt1 : List Nat := [
  0x616d6f73747261, 0x616d7061726172, 0x616d706c696172, 0x616d706f6c61, 0x616e616772616d61, 0x616e616c69736172, 0x616e617271756961, 0x616e61746f6d6961,
  0x616e6461696d65, 0x616e656c, 0x616e65786f, 0x616e67756c6172, 0x616e696d6172, 0x616e6a6f, 0x616e6f6d616c6961, 0x616e6f7461646f,
  0x616e73696f736f, 0x616e746572696f72, 0x616e756964616465, 0x616e756e63696172, 0x616e7a6f6c, 0x6170616761646f72, 0x6170616c706172, 0x6170616e6861646f,
  0x617065676f, 0x6170656c69646f, 0x6170657274616461, 0x617065736172, 0x61706574697465, 0x617069746f, 0x61706c6175736f, 0x61706c6963616461,
  0x61706f696f, 0x61706f6e746172, 0x61706f737461, 0x617072656e64697a, 0x6170726f766172, 0x61717565636572, 0x6172616d65, 0x6172616e6861,
  0x6172617261, 0x617263616461, 0x617264656e7465, 0x6172656961, 0x6172656a6172, 0x6172656e69746f, 0x617265737461, 0x617267696c6f736f,
  0x6172676f6c61, 0x61726d61, 0x6172717569766f, 0x6172726169616c, 0x6172726562617465, 0x6172726973636172, 0x6172726f6261, 0x617272756d6172,
  0x617273656e616c, 0x617274657269616c, 0x61727469676f, 0x6172766f7265646f, 0x617366616c746172, 0x6173696c61646f, 0x61737069726172, 0x61737361646f72,
  0x617373696e6172, 0x6173736f616c686f, 0x617373756e746f, 0x61737472616c, 0x6174616361646f, 0x61746164757261, 0x6174616c686f, 0x6174617265666172,
  0x6174656172, 0x6174656e646572, 0x61746572726f, 0x61746575, 0x6174696e676972, 0x6174697261646f72, 0x617469766f, 0x61746f6c6569726f,
  0x61747261636172, 0x617472657669646f, 0x617472697a, 0x617475616c, 0x6174756d, 0x61756469746f72, 0x61756d656e746172, 0x61757261,
  0x6175726f7261, 0x61757469736d6f, 0x6175746f726961, 0x617574756172, 0x6176616c696172, 0x6176616e7465, 0x617661726961, 0x6176656e74616c,
  0x61766573736f, 0x61766961646f72, 0x617669736172, 0x6176756c736f, 0x6178696c61, 0x617a61726172, 0x617a65646f, 0x617a65697465,
  0x617a756c656a6f, 0x6261626172, 0x6261626f7361, 0x626163616c686175, 0x626163686172656c, 0x6261636961, 0x6261676167656d, 0x626169616e6f,
  0x6261696c6172, 0x6261696f6e657461, 0x62616972726f, 0x6261697869737461, 0x62616a756c6172, 0x62616c656961, 0x62616c697a61, 0x62616c7361,
  0x62616e616c, 0x62616e6465697261, 0x62616e686f, 0x62616e6972, 0x62616e7175657465, 0x62617261746f, 0x6261726261646f, 0x6261726f6e657361]
private def pt2 : List Nat := [
  0x62617272616361, 0x626172756c686f, 0x6261736561646f, 0x62617374616e7465, 0x626174617461, 0x62617465646f72, 0x626174696461, 0x6261746f6d,
  0x62617475636172, 0x6261756e696c6861, 0x6265626572, 0x6265696a6f, 0x62656972616461, 0x6265697365626f6c, 0x62656c64616465, 0x62656c657a61,
  0x62656c6761, 0x62656c6973636172, 0x62656e6469746f, 0x62656e67616c61, 0x62656e7a6572, 0x626572696d626175, 0x6265726c696e6461, 0x626572726f,
  0x6265736f75726f, 0x626578696761, 0x62657a6572726f, 0x6269636f, 0x62696375646f, 0x6269656e616c, 0x6269666f63616c, 0x6269667572636172,
  0x6269676f726e61, 0x62696c68657465, 0x62696d6573747265, 0x62696d6f746f72, 0x62696f6c6f676961, 0x62696f6d626f, 0x62696f7366657261, 0x6269706f6c6172,
  0x62697272656e746f, 0x626973636f69746f, 0x6269736e65746f, 0x626973706f, 0x626973736578746f, 0x6269746f6c61, 0x62697a6172726f, 0x626c696e6461646f,
  0x626c6f636f, 0x626c6f7175656172, 0x626f61746f, 0x626f626167656d, 0x626f6361646f, 0x626f63656a6f, 0x626f636865636861, 0x626f69636f746172,
  0x626f6c616461, 0x626f6c6574696d, 0x626f6c6861, 0x626f6c6f, 0x626f6d626569726f, 0x626f6e6465, 0x626f6e65636f, 0x626f6e697461,
  0x626f7262756c6861, 0x626f726461, 0x626f7265616c, 0x626f727261636861, 0x626f76696e6f, 0x626f786561646f72, 0x6272616e636f, 0x6272617361,
  0x62726176657a61, 0x62726575, 0x6272696761, 0x6272696c686f, 0x6272696e636172, 0x62726f61, 0x62726f6368757261, 0x62726f6e7a656172,
  0x62726f746f, 0x627275786f, 0x6275636861, 0x62756469736d6f, 0x6275666172, 0x62756c65, 0x62757261636f, 0x6275736361,
  0x627573746f, 0x62757a696e61, 0x636162616e61, 0x636162656c6f, 0x636162696465, 0x6361626f, 0x6361627269746f, 0x6361636175,
  0x6361636574616461, 0x636163686f72726f, 0x63616369717565, 0x636164617374726f, 0x6361646561646f, 0x636166657a616c, 0x63616961717565, 0x63616970697261,
  0x636169786f7465, 0x63616a61646f, 0x63616a75, 0x63616c616672696f, 0x63616c63756c6172, 0x63616c6465697261, 0x63616c6962726172, 0x63616c6d616e7465,
  0x63616c6f7461, 0x63616d616461, 0x63616d6269737461, 0x63616d697361, 0x63616d6f6d696c61, 0x63616d70616e6861, 0x63616d75666c6172, 0x63616e617669616c,
  0x63616e63656c6172, 0x63616e657461, 0x63616e67757275, 0x63616e686f746f, 0x63616e6976657465, 0x63616e6f61, 0x63616e7361646f, 0x63616e746172]
private def pt3 : List Nat := [
  0x63616e75646f, 0x6361706163686f, 0x636170656c61, 0x636170696e6172, 0x6361706f746172, 0x636170726963686f, 0x6361707461646f72, 0x636170757a,
  0x63617261636f6c, 0x636172626f6e6f, 0x6361726465616c, 0x636172656361, 0x636172696d626172, 0x6361726e6569726f, 0x63617270657465, 0x6361727265697261,
  0x63617274617a, 0x63617276616c686f, 0x63617361636f, 0x6361736361, 0x63617365627265, 0x63617374656c6f, 0x636173756c6f, 0x6361746172617461,
  0x63617469766172, 0x6361756c65, 0x6361757361646f72, 0x63617574656c6172, 0x636176616c6f, 0x63617665726e61, 0x6365626f6c61, 0x636564696c6861,
  0x6365676f6e6861, 0x63656c6562726172, 0x63656c756c6172, 0x63656e6f757261, 0x63656e736f, 0x63656e7465696f, 0x636572636172, 0x6365727261646f,
  0x636572746569726f, 0x63657276656a61, 0x636574696d, 0x636576616461, 0x636861636f7461, 0x6368616c65697261, 0x6368616d61646f, 0x63686170616461,
  0x636861726d65, 0x63686174696365, 0x6368617665, 0x6368656665, 0x63686567616461, 0x63686569726f, 0x636865717565, 0x636869636f7465,
  0x636869667265, 0x6368696e656c6f, 0x63686f63616c686f, 0x63686f766572, 0x6368756d626f, 0x636875746172, 0x6368757661, 0x636963617472697a,
  0x6369636c6f6e65, 0x636964616465, 0x6369647265697261, 0x6369656e7465, 0x636967616e61, 0x63696d656e746f, 0x63696e746f, 0x63696e7a61,
  0x636972616e6461, 0x636972637569746f, 0x6369727572676961, 0x6369746172, 0x636c6172657a61, 0x636c65726f, 0x636c69636172, 0x636c6f6e65,
  0x636c756265, 0x636f61646f, 0x636f61676972, 0x636f62616961, 0x636f626572746f72, 0x636f62726172, 0x636f63616461, 0x636f656c686f,
  0x636f656e74726f, 0x636f65736f, 0x636f67756d656c6f, 0x636f69626972, 0x636f696661, 0x636f696f7465, 0x636f6c6172, 0x636f6c65697261,
  0x636f6c686572, 0x636f6c69646972, 0x636f6c6d656961, 0x636f6c6f6e6f, 0x636f6c756e61, 0x636f6d616e646f, 0x636f6d62696e6172, 0x636f6d656e746172,
  0x636f6d6974697661, 0x636f6d6f766572, 0x636f6d706c65786f, 0x636f6d756d, 0x636f6e636861, 0x636f6e646f72, 0x636f6e6563746172, 0x636f6e6675736f,
  0x636f6e67656c6172, 0x636f6e6865636572, 0x636f6e6a75676172, 0x636f6e73756d6972, 0x636f6e747261746f, 0x636f6e76697465, 0x636f6f7065726172, 0x636f706569726f,
  0x636f706961646f72, 0x636f706f, 0x636f71756574656c, 0x636f726167656d, 0x636f726469616c, 0x636f726e657461, 0x636f726f6e6861, 0x636f72706f72616c]
private def pt4 : List Nat := [
  0x636f727265696f, 0x636f7274656a6f, 0x636f72756a61, 0x636f72766f, 0x636f7373656e6f, 0x636f7374656c61, 0x636f746f6e657465, 0x636f75726f,
  0x636f757665, 0x636f76696c, 0x636f7a696e6861, 0x63726174657261, 0x637261766f, 0x637265636865, 0x637265646f72, 0x6372656d65,
  0x63726572, 0x63726573706f, 0x637269616461, 0x6372696d696e616c, 0x6372696f756c6f, 0x6372697365, 0x6372697469636172, 0x63726f737461,
  0x63727561, 0x6372757a6569726f, 0x637562616e6f, 0x6375656361, 0x6375696461646f, 0x63756a6f, 0x63756c61747261, 0x63756c6d696e6172,
  0x63756c706172, 0x63756c74757261, 0x63756d70726972, 0x63756e6861646f, 0x63757069646f, 0x637572617469766f, 0x63757272616c, 0x637572736172,
  0x637572746f, 0x637573706972, 0x63757374656172, 0x637574656c6f, 0x64616d6173636f, 0x6461746172, 0x64656261746572, 0x64656269746172,
  0x6465626f636865, 0x646562756c686172, 0x646563616c717565, 0x646563696d616c, 0x6465636c697665, 0x6465636f7465, 0x6465637265746172, 0x646564616c,
  0x646564696361646f, 0x646564757a6972, 0x646566657361, 0x646566756d6172, 0x646567656c6f, 0x646567726175, 0x6465677573746172, 0x6465697461646f,
  0x646569786172, 0x64656c61746f72, 0x64656c656761646f, 0x64656c696e656172, 0x64656c6f6e6761, 0x64656d616e6461, 0x64656d69746972, 0x64656d6f6c69646f,
  0x64656e7469737461, 0x646570656e61646f, 0x646570696c6172, 0x6465706f6973, 0x6465707265737361, 0x64657075726172, 0x646572697661, 0x64657272616d6172,
  0x6465736166696f, 0x646573626f746172, 0x64657363616e736f, 0x646573656e686f, 0x646573666961646f, 0x6465736761737465, 0x646573696775616c, 0x6465736c697a65,
  0x6465736d616d6172, 0x6465736f7661, 0x64657370657361, 0x6465737461717565, 0x64657376696172, 0x646574616c686172, 0x646574656e746f72, 0x6465746f6e6172,
  0x6465747269746f, 0x6465757361, 0x6465766572, 0x64657669646f, 0x6465766f7461646f, 0x64657a656e61, 0x6469616772616d61, 0x6469616c65746f,
  0x646964617461, 0x64696675736f, 0x64696769746172, 0x64696c617461646f, 0x64696c75656e7465, 0x64696d696e756972, 0x64696e6173746961, 0x64696e686569726f,
  0x64696f63657365, 0x64697265746f, 0x6469736372657461, 0x6469736661726365, 0x6469737061726f, 0x6469737175657465, 0x6469737369706172, 0x64697374616e7465,
  0x64697461646f72, 0x646975726e6f, 0x6469766572736f, 0x64697669736f72, 0x646976756c676172, 0x64697a6572, 0x646f627261646f72, 0x646f6c6f7269646f]
private def pt5 : List Nat := [
  0x646f6d61646f72, 0x646f6d696e61646f, 0x646f6e617469766f, 0x646f6e7a656c61, 0x646f726d656e7465, 0x646f7273616c, 0x646f736167656d, 0x646f757261646f,
  0x646f75746f72, 0x6472656e6167656d, 0x647269626c65, 0x64726f6761726961, 0x6475656c6172, 0x6475656e6465, 0x647565746f, 0x6475706c6f,
  0x64757175657361, 0x647572616e7465, 0x64757669646f736f, 0x65636c6f646972, 0x65636f6172, 0x65636f6c6f676961, 0x6564696669636172, 0x65646974616c,
  0x6564756361646f, 0x65666569746f, 0x6566657469766172, 0x656a65746172, 0x656c61626f726172, 0x656c65676572, 0x656c6569746f72, 0x656c656e636f,
  0x656c657661646f72, 0x656c696d696e6172, 0x656c6f67696172, 0x656d626172676f, 0x656d626f6c61646f, 0x656d6272756c686f, 0x656d62757469646f, 0x656d656e6461,
  0x656d6572676972, 0x656d6973736f72, 0x656d7061746961, 0x656d70656e686f, 0x656d70696e61646f, 0x656d706f6c676172, 0x656d707265676f, 0x656d707572726172,
  0x656d756c61646f72, 0x656e6361697865, 0x656e63656e61646f, 0x656e6368656e7465, 0x656e636f6e74726f, 0x656e646575736172, 0x656e646f73736172, 0x656e666169786172,
  0x656e6665697465, 0x656e66696d, 0x656e67616a61646f, 0x656e67656e686f, 0x656e676c6f626172, 0x656e676f6d61646f, 0x656e677261786172, 0x656e67756961,
  0x656e6a6f6172, 0x656e6c61746172, 0x656e7175616e746f, 0x656e7261697a6172, 0x656e726f6c61646f, 0x656e7275676172, 0x656e7361696f, 0x656e7365616461,
  0x656e73696e6f, 0x656e736f7061646f, 0x656e74616e746f, 0x656e746561646f, 0x656e746964616465, 0x656e746f72746172, 0x656e7472616461, 0x656e74756c686f,
  0x656e766572676172, 0x656e766961646f, 0x656e766f6c766572, 0x656e78616d65, 0x656e786572746f, 0x656e786f667265, 0x656e7875746f, 0x6570696465726d65,
  0x65717569706172, 0x657265746f, 0x6572677569646f, 0x657272617461, 0x65727661, 0x657276696c6861, 0x657362616e6a6172, 0x657362656c746f,
  0x657363616d61, 0x6573636f6c61, 0x65736372697461, 0x657363757461, 0x657366696e6765, 0x6573666f6c6172, 0x6573667265676172, 0x657366756d61646f,
  0x65736772696d61, 0x65736d616c7465, 0x657370616e746f, 0x657370656c686f, 0x657370696761, 0x6573706f6e6a61, 0x6573707265697461, 0x657370756d6172,
  0x6573717565726461, 0x657374616361, 0x65737465697261, 0x65737469636172, 0x6573746f6661646f, 0x65737472656c61, 0x65737475646f, 0x657376617a696172,
  0x6574616e6f6c, 0x6574697175657461, 0x6575666f726961, 0x6575726f706575, 0x65766163756172, 0x657661706f726172, 0x6576617369766f, 0x6576656e7475616c]
private def pt6 : List Nat := [
  0x65766964656e7465, 0x65766f6c756972, 0x6578616765726f, 0x6578616c6172, 0x6578616d696e6172, 0x657861746f, 0x6578617573746f, 0x6578636573736f,
  0x65786369746172, 0x6578636c616d6172, 0x6578656375746172, 0x6578656d706c6f, 0x657869626972, 0x65786967656e7465, 0x65786f6e65726172, 0x657870616e646972,
  0x657870656c6972, 0x65787069726172, 0x6578706c616e6172, 0x6578706f73746f, 0x657870726573736f, 0x657870756c736172, 0x65787465726e6f, 0x657874696e746f,
  0x6578747261746f, 0x6661627269636172, 0x666162756c6f736f, 0x666163657461, 0x66616369616c, 0x66616461, 0x666164696761, 0x6661697861,
  0x66616c6172, 0x66616c7461, 0x66616d696c696172, 0x66616e64616e676f, 0x66616e6661727261, 0x66616e746f636865, 0x6661726461646f, 0x666172656c6f,
  0x666172696e6861, 0x6661726f6661, 0x6661727061, 0x66617274757261, 0x6661746961, 0x6661746f72, 0x6661766f72697461, 0x666178696e61,
  0x66617a656e6461, 0x6665636861646f, 0x6665696a6f616461, 0x66656972616e7465, 0x66656c696e6f, 0x66656d696e696e6f, 0x66656e6461, 0x66656e6f,
  0x66657261, 0x6665726961646f, 0x666572727567656d, 0x666572766572, 0x66657374656a6172, 0x666574616c, 0x66657564616c, 0x666961706f,
  0x666962726f7365, 0x6669636172, 0x666963686569726f, 0x666967757261646f, 0x66696c65697261, 0x66696c686f, 0x66696c6d65, 0x66696c74726172,
  0x6669726d657a61, 0x66697367616461, 0x66697373757261, 0x66697461, 0x666976656c61, 0x66697861646f72, 0x6669786f, 0x666c61636964657a,
  0x666c616d696e676f, 0x666c616e656c61, 0x666c656368616461, 0x666c6f7261, 0x666c7574756172, 0x666c75786f, 0x666f63616c, 0x666f63696e686f,
  0x666f666f636172, 0x666f676f, 0x666f6775657465, 0x666f696365, 0x666f6c6761646f, 0x666f6c6865746f, 0x666f726a6172, 0x666f726d696761,
  0x666f726e6f, 0x666f727465, 0x666f73636f, 0x666f737361, 0x66726167617461, 0x6672616c6461, 0x6672616e676f, 0x66726173636f,
  0x6672617465726e6f, 0x667265697261, 0x6672656e7465, 0x667265746172, 0x667269657a61, 0x667269736f, 0x66726974757261, 0x66726f6e6861,
  0x6672757374726172, 0x6672757465697261, 0x6675676972, 0x66756c616e6f, 0x66756c6967656d, 0x66756e646172, 0x66756e676f, 0x66756e696c,
  0x66757261646f72, 0x667572696f736f, 0x66757465626f6c, 0x676162617269746f, 0x676162696e657465, 0x6761646f, 0x67616961746f, 0x6761696f6c61]
private def pt7 : List Nat := [
  0x676169766f7461, 0x67616c656761, 0x67616c686f, 0x67616c696e6861, 0x67616c6f636861, 0x67616e686172, 0x6761726167656d, 0x676172666f,
  0x67617267616c6f, 0x676172696d706f, 0x6761726f757061, 0x67617272616661, 0x6761736f6475746f, 0x676173746f, 0x67617461, 0x676174696c686f,
  0x676176657461, 0x67617a656c61, 0x67656c61646f, 0x67656c656961, 0x67656c6f, 0x67656d616461, 0x67656d6572, 0x67656d69646f,
  0x67656e65726f736f, 0x67656e67697661, 0x67656e69616c, 0x67656e6f6d61, 0x67656e726f, 0x67656f6c6f676961, 0x67657261646f72, 0x6765726d696e6172,
  0x676573736f, 0x676573746f72, 0x67696e61737461, 0x67696e63616e61, 0x67696e6761646f, 0x676972616661, 0x676972696e6f, 0x676c616369616c,
  0x676c69636f7365, 0x676c6f62616c, 0x676c6f72696f736f, 0x676f656c61, 0x676f69616261, 0x676f6c6665, 0x676f6c70656172, 0x676f7264757261,
  0x676f726a657461, 0x676f72726f, 0x676f73746f736f, 0x676f7465697261, 0x676f7665726e6172, 0x67726163656a6f, 0x6772616475616c, 0x67726166697465,
  0x6772616c6861, 0x6772616d706f, 0x6772616e616461, 0x677261747569746f, 0x6772617665746f, 0x6772617861, 0x677265676f, 0x6772656c686172,
  0x6772657665, 0x6772696c6f, 0x67726973616c686f, 0x6772697461726961, 0x67726f73736f, 0x67726f746573636f, 0x6772756461646f, 0x6772756e6869646f,
  0x6772757461, 0x677561636865, 0x67756172616e69, 0x67756178696e696d, 0x6775657272656172, 0x6775696172, 0x6775696e63686f, 0x6775697361646f,
  0x67756c61, 0x67756c6f736f, 0x67757275, 0x68616269746172, 0x6861726d6f6e6961, 0x6861737465, 0x6861766572, 0x68656374617265,
  0x686572646172, 0x68657265736961, 0x68657369746172, 0x686961746f, 0x68696265726e6172, 0x6869647261746172, 0x6869656e61, 0x68696e6f,
  0x68697069736d6f, 0x6869706e6f7365, 0x6869706f74656361, 0x686f6a65, 0x686f6c6f666f7465, 0x686f6d656d, 0x686f6e6573746f, 0x686f6e7261646f,
  0x686f726d6f6e616c, 0x686f737065646172, 0x68756d6f7261646f, 0x69617465, 0x6964656961, 0x69646f736f, 0x69676e6f7261646f, 0x696772656a61,
  0x696775616e61, 0x696c65736f, 0x696c6861, 0x696c756469646f, 0x696c756d696e6172, 0x696c757374726172, 0x696d6167656d, 0x696d65646961746f,
  0x696d656e736f, 0x696d65727369766f, 0x696d696e656e7465, 0x696d697461646f72, 0x696d6f7274616c, 0x696d706163746f, 0x696d7065646972, 0x696d706c616e7465]
private def pt8 : List Nat := [
  0x696d706f72, 0x696d7072656e7361, 0x696d70756e65, 0x696d756e697a6172, 0x696e616c61646f72, 0x696e6170746f, 0x696e617469766f, 0x696e63656e736f,
  0x696e63686172, 0x696e6369646972, 0x696e636c756972, 0x696e636f6c6f72, 0x696e64656369736f, 0x696e64697265746f, 0x696e6475746f72, 0x696e65666963617a,
  0x696e6572656e7465, 0x696e66616e74696c, 0x696e666573746172, 0x696e66696e69746f, 0x696e666c616d6172, 0x696e666f726d616c, 0x696e667261746f72, 0x696e6765726972,
  0x696e696269646f, 0x696e696369616c, 0x696e696d69676f, 0x696e6a65746172, 0x696e6f63656e7465, 0x696e6f646f726f, 0x696e6f7661646f72, 0x696e6f78,
  0x696e71756965746f, 0x696e73637269746f, 0x696e7365746f, 0x696e736973746972, 0x696e737065746f72, 0x696e7374616c6172, 0x696e73756c746f, 0x696e746163746f,
  0x696e74656772616c, 0x696e74696d6172, 0x696e746f6361646f, 0x696e7472696761, 0x696e7661736f72, 0x696e7665726e6f, 0x696e766963746f, 0x696e766f636172,
  0x696f6775727465, 0x6972616e69616e6f, 0x69726f6e697a6172, 0x69727265616c, 0x697272697461646f, 0x69736361, 0x6973656e746f, 0x69736f6c61646f,
  0x697371756569726f, 0x6974616c69616e6f, 0x6a616e6569726f, 0x6a616e67616461, 0x6a616e7461, 0x6a61726172616361, 0x6a617264696d, 0x6a6172726f,
  0x6a61736d696d, 0x6a61746f, 0x6a6176616c69, 0x6a617a696461, 0x6a656a756d, 0x6a6f616e696e6861, 0x6a6f656c68616461, 0x6a6f6761646f72,
  0x6a6f6961, 0x6a6f726e616c, 0x6a6f72726172, 0x6a6f76656d, 0x6a756261, 0x6a75646575, 0x6a75646f6361, 0x6a75697a,
  0x6a756c6761646f72, 0x6a756c686f, 0x6a757261646f, 0x6a757269737461, 0x6a75726f, 0x6a75737461, 0x6c61626172656461, 0x6c61626f72616c,
  0x6c61637265, 0x6c616374616e7465, 0x6c616472696c686f, 0x6c616761727461, 0x6c61676f61, 0x6c616a65, 0x6c616d626572, 0x6c616d656e746172,
  0x6c616d696e6172, 0x6c616d70656a6f, 0x6c616e636865, 0x6c617069646172, 0x6c6170736f, 0x6c6172616e6a61, 0x6c617265697261, 0x6c617267757261,
  0x6c6173616e6861, 0x6c617374726f, 0x6c61746572616c, 0x6c617469646f, 0x6c6176616e6461, 0x6c61766f757261, 0x6c61767261646f72, 0x6c6178616e7465,
  0x6c617a6572, 0x6c65616c64616465, 0x6c65627265, 0x6c656761646f, 0x6c6567656e646172, 0x6c656769737461, 0x6c6569676f, 0x6c65696c6f6172,
  0x6c656974757261, 0x6c656d6272657465, 0x6c656d65, 0x6c656e6861646f72, 0x6c656e74696c6861, 0x6c656f61, 0x6c65736d61, 0x6c65737465]
private def pt9 : List Nat := [
  0x6c657469766f, 0x6c6574726569726f, 0x6c65766172, 0x6c6576657a61, 0x6c657669746172, 0x6c69626572616c, 0x6c696269646f, 0x6c696465726172,
  0x6c69676172, 0x6c69676569726f, 0x6c696d69746172, 0x6c696d6f6569726f, 0x6c696d7061646f72, 0x6c696e6461, 0x6c696e656172, 0x6c696e686167656d,
  0x6c6971756964657a, 0x6c6973746167656d, 0x6c6973757261, 0x6c69746f72616c, 0x6c6976726f, 0x6c697861, 0x6c697865697261, 0x6c6f6361646f72,
  0x6c6f6375746f72, 0x6c6f6a69737461, 0x6c6f6d626f, 0x6c6f6e61, 0x6c6f6e6765, 0x6c6f6e747261, 0x6c6f726465, 0x6c6f7461646f,
  0x6c6f7465726961, 0x6c6f7563757261, 0x6c6f757361, 0x6c6f75766172, 0x6c756172, 0x6c75636964657a, 0x6c7563726f, 0x6c756e657461,
  0x6c7573747265, 0x6c757461646f72, 0x6c757661, 0x6d616361636f, 0x6d6163657465, 0x6d61636861646f, 0x6d6163696f, 0x6d616465697261,
  0x6d616472696e6861, 0x6d61676e617461, 0x6d616772657a61, 0x6d61696f72, 0x6d616973, 0x6d616c616e64726f, 0x6d616c6861, 0x6d616c6f7465,
  0x6d616c75636f, 0x6d616d696c6f, 0x6d616d6f6569726f, 0x6d616d757465, 0x6d616e616461, 0x6d616e636861, 0x6d616e6461746f, 0x6d616e657175696d,
  0x6d616e686f736f, 0x6d616e6976656c61, 0x6d616e6f62726172, 0x6d616e7361, 0x6d616e746572, 0x6d616e7573656172, 0x6d61706561646f, 0x6d617175696e6172,
  0x6d61726361646f72, 0x6d617265736961, 0x6d617266696d, 0x6d617267656d, 0x6d6172696e686f, 0x6d61726d697461, 0x6d61726f746f, 0x6d61727175697365,
  0x6d61727265636f, 0x6d617274656c6f, 0x6d6172756a6f, 0x6d6173636f7465, 0x6d61736d6f727261, 0x6d6173736167656d, 0x6d61737469676172, 0x6d61746167616c,
  0x6d617465726e6f, 0x6d6174696e616c, 0x6d617475746172, 0x6d6178696c6172, 0x6d6564616c6861, 0x6d6564696461, 0x6d6564757361, 0x6d656761666f6e65,
  0x6d65696761, 0x6d656c616e636961, 0x6d656c686f72, 0x6d656d62726f, 0x6d656d6f7269616c, 0x6d656e696e6f, 0x6d656e6f73, 0x6d656e736167656d,
  0x6d656e74616c, 0x6d657265636572, 0x6d657267756c686f, 0x6d6573616461, 0x6d6573636c6172, 0x6d65736d6f, 0x6d65737175697461, 0x6d6573747265,
  0x6d6574616465, 0x6d6574656f726f, 0x6d6574726167656d, 0x6d65786572, 0x6d65786963616e6f, 0x6d6963726f, 0x6d6967616c6861, 0x6d6967726172,
  0x6d696c61677265, 0x6d696c656e6172, 0x6d696c686172, 0x6d696d61646f, 0x6d696e65726172, 0x6d696e686f6361, 0x6d696e697374726f, 0x6d696e6f726961]
private def pt10 : List Nat := [
  0x6d696f6c6f, 0x6d6972616e7465, 0x6d697274696c6f, 0x6d69737475726172, 0x6d6f636964616465, 0x6d6f6465726e6f, 0x6d6f64756c6172, 0x6d6f656461,
  0x6d6f6572, 0x6d6f696e686f, 0x6d6f697461, 0x6d6f6c64757261, 0x6d6f6c657a61, 0x6d6f6c686f, 0x6d6f6c696e657465, 0x6d6f6c7573636f,
  0x6d6f6e74616e6861, 0x6d6f7175656361, 0x6d6f72616e676f, 0x6d6f726365676f, 0x6d6f72646f6d6f, 0x6d6f72656e61, 0x6d6f736169636f, 0x6d6f737175657465,
  0x6d6f737461726461, 0x6d6f74656c, 0x6d6f74696d, 0x6d6f746f, 0x6d6f7472697a, 0x6d756461, 0x6d7569746f, 0x6d756c617461,
  0x6d756c686572, 0x6d756c746172, 0x6d756e6469616c, 0x6d756e69646f, 0x6d7572616c6861, 0x6d757263686f, 0x6d757363756c6172, 0x6d75736575,
  0x6d75736963616c, 0x6e6163696f6e616c, 0x6e616461646f72, 0x6e616a61, 0x6e616d6f726f, 0x6e6172696e61, 0x6e61727261646f, 0x6e6173636572,
  0x6e6174697661, 0x6e61747572657a61, 0x6e6176616c6861, 0x6e617665676172, 0x6e6176696f, 0x6e65626c696e61, 0x6e6562756c6f736f, 0x6e65676174697661,
  0x6e65676f63696172, 0x6e65677269746f, 0x6e6572766f736f, 0x6e657461, 0x6e657572616c, 0x6e657661736361, 0x6e65766f6569726f, 0x6e696e6172,
  0x6e696e686f, 0x6e69746964657a, 0x6e6976656c6172, 0x6e6f6272657a61, 0x6e6f697465, 0x6e6f697661, 0x6e6f6d656172, 0x6e6f6d696e616c,
  0x6e6f726465737465, 0x6e6f7274656172, 0x6e6f746172, 0x6e6f746963696172, 0x6e6f7475726e6f, 0x6e6f76656c6f, 0x6e6f76696c686f, 0x6e6f766f,
  0x6e75626c61646f, 0x6e7564657a, 0x6e756d6572616c, 0x6e75706369616c, 0x6e7574726972, 0x6e7576656d, 0x6f6263656361646f, 0x6f62656465636572,
  0x6f626a657469766f, 0x6f6272696761646f, 0x6f62736375726f, 0x6f62737465747261, 0x6f62746572, 0x6f627475726172, 0x6f636964656e7465, 0x6f63696f736f,
  0x6f636f72726572, 0x6f63756c69737461, 0x6f63757061646f, 0x6f666567616e7465, 0x6f66656e73697661, 0x6f666572656e6461, 0x6f666963696e61, 0x6f6675736361646f,
  0x6f67697661, 0x6f6c61726961, 0x6f6c656f736f, 0x6f6c686172, 0x6f6c697665697261, 0x6f6d62726f, 0x6f6d656c657465, 0x6f6d6973736f,
  0x6f6d69746972, 0x6f6e64756c61646f, 0x6f6e65726f736f, 0x6f6e74656d, 0x6f7063696f6e616c, 0x6f70657261646f72, 0x6f706f6e656e7465, 0x6f706f7274756e6f,
  0x6f706f73746f, 0x6f726172, 0x6f726269746172, 0x6f7264656d, 0x6f7264696e616c, 0x6f7266616e61746f, 0x6f726761736d6f, 0x6f7267756c686f]
private def pt11 : List Nat := [
  0x6f7269656e74616c, 0x6f726967656d, 0x6f7269756e646f, 0x6f726c61, 0x6f72746f646f786f, 0x6f7276616c686f, 0x6f7363696c6172, 0x6f7373616461,
  0x6f73736f, 0x6f7374656e746172, 0x6f74696d69736d6f, 0x6f757361646961, 0x6f75746f6e6f, 0x6f75747562726f, 0x6f757669646f, 0x6f76656c6861,
  0x6f76756c6172, 0x6f7869646172, 0x6f786967656e6172, 0x70616361746f, 0x70616369656e7465, 0x7061636f7465, 0x70616374756172, 0x70616461726961,
  0x70616472696e686f, 0x7061676172, 0x7061676f6465, 0x7061696e656c, 0x706169726172, 0x706169736167656d, 0x70616c61767261, 0x70616c6573747261,
  0x70616c68657461, 0x70616c69746f, 0x70616c6d616461, 0x70616c7069746172, 0x70616e63616461, 0x70616e656c61, 0x70616e666c65746f, 0x70616e7175656361,
  0x70616e74616e616c, 0x706170616761696f, 0x706170656c616461, 0x70617069726f, 0x7061726166696e61, 0x7061726369616c, 0x70617264616c, 0x706172656465,
  0x70617274696461, 0x7061736d6f, 0x7061737361646f, 0x70617374656c, 0x706174616d6172, 0x706174656e7465, 0x706174696e6172, 0x706174726f6e6f,
  0x7061756c616461, 0x706175736172, 0x706563756c696172, 0x706564616c6172, 0x7065646573747265, 0x7065646961747261, 0x7065647261, 0x706567616461,
  0x706569746f72616c, 0x7065697865, 0x70656c65, 0x70656c6963616e6f, 0x70656e6361, 0x70656e6475726172, 0x70656e65697261, 0x70656e686173636f,
  0x70656e7361646f72, 0x70656e7465, 0x7065726365626572, 0x706572666569746f, 0x70657267756e7461, 0x70657269746f, 0x7065726d69746972, 0x7065726e61,
  0x706572706c65786f, 0x7065727369616e61, 0x70657274656e6365, 0x706572756361, 0x7065736361646f, 0x7065737175697361, 0x706573736f61, 0x7065746973636172,
  0x7069616461, 0x70696361646f, 0x70696564616465, 0x7069676d656e746f, 0x70696c6173747261, 0x70696c6861646f, 0x70696c6f746172, 0x70696d656e7461,
  0x70696e63656c, 0x70696e6775696d, 0x70696e6861, 0x70696e6f7465, 0x70696e746172, 0x70696f6e6569726f, 0x7069706f6361, 0x70697175657465,
  0x706972616e6861, 0x7069726573, 0x70697275657461, 0x706973636172, 0x706973746f6c61, 0x706974616e6761, 0x706976657465, 0x706c616e7461,
  0x706c617175657461, 0x706c6174696e61, 0x706c65626575, 0x706c756d6167656d, 0x706c757669616c, 0x706e6575, 0x706f6461, 0x706f65697261,
  0x706f6574697361, 0x706f6c6567616461, 0x706f6c6963696172, 0x706f6c75656e7465, 0x706f6c76696c686f, 0x706f6d6172, 0x706f6d6261, 0x706f6e6465726172]
private def pt12 : List Nat := [
  0x706f6e7461726961, 0x706f70756c6f736f, 0x706f727461, 0x706f7373756972, 0x706f7374616c, 0x706f7465, 0x706f75706172, 0x706f75736f,
  0x706f766f6172, 0x7072616961, 0x7072616e636861, 0x707261746f, 0x7072617865, 0x7072656365, 0x7072656461646f72, 0x707265666569746f,
  0x7072656d696172, 0x7072656e736172, 0x7072657061726172, 0x70726573696c6861, 0x707265746578746f, 0x70726576656e6972, 0x7072657a6172, 0x7072696d617461,
  0x7072696e63657361, 0x707269736d61, 0x7072697661646f, 0x70726f636573736f, 0x70726f6475746f, 0x70726f66657461, 0x70726f696269646f, 0x70726f6a65746f,
  0x70726f6d65746572, 0x70726f7061676172, 0x70726f7361, 0x70726f7465746f72, 0x70726f7661646f72, 0x7075626c69636172, 0x707564696d, 0x70756c6172,
  0x70756c6d6f6e6172, 0x70756c7365697261, 0x70756e68616c, 0x70756e6972, 0x707570696c6f, 0x707572657a61, 0x70757861646f72, 0x717561647261,
  0x7175616e746961, 0x71756172746f, 0x7175617365, 0x71756562726172, 0x7175656461, 0x717565696a6f, 0x7175656e7465, 0x7175657269646f,
  0x7175696d6f6e6f, 0x7175696e61, 0x7175696f73717565, 0x726162616e616461, 0x7261626973636f, 0x726163686172, 0x726163696f6e6172, 0x72616469616c,
  0x7261696172, 0x7261696e6861, 0x7261696f, 0x7261697661, 0x72616a616461, 0x72616c61646f, 0x72616d616c, 0x72616e676572,
  0x72616e68757261, 0x7261706164757261, 0x726170656c, 0x7261706964657a, 0x7261706f7361, 0x72617175657465, 0x7261726964616465, 0x726173616e7465,
  0x72617363756e686f, 0x726173676172, 0x7261737061646f72, 0x7261737465697261, 0x72617375726172, 0x726174617a616e61, 0x7261746f65697261, 0x7265616c657a61,
  0x7265616e696d6172, 0x726561766572, 0x7265626169786172, 0x726562656c6465, 0x7265626f6c6172, 0x72656361646f, 0x726563656e7465, 0x7265636865696f,
  0x72656369626f, 0x7265636f72646172, 0x7265637275746172, 0x726563756172, 0x72656465, 0x726564696d6972, 0x7265646f6e6461, 0x726564757a696461,
  0x7265656e76696f, 0x726566696e6172, 0x7265666c65746972, 0x7265666f676172, 0x726566726573636f, 0x7265667567696172, 0x726567616c6961, 0x726567696d65,
  0x7265677261, 0x7265696e61646f, 0x726569746f72, 0x72656a6569746172, 0x72656c617469766f, 0x72656d61646f72, 0x72656d656e646f, 0x72656d6f72736f,
  0x72656e6f7661646f, 0x72657061726f, 0x726570656c6972, 0x7265706c65746f, 0x7265706f6c686f, 0x72657072657361, 0x7265707564696172, 0x7265717565726572]
private def pt13 : List Nat := [
  0x726573656e6861, 0x7265736672696172, 0x7265736761746172, 0x72657369646972, 0x7265736f6c766572, 0x726573706569746f, 0x72657373616361, 0x72657374616e7465,
  0x726573756d6972, 0x726574616c686f, 0x7265746572, 0x72657469726172, 0x7265746f6d616461, 0x7265747261746172, 0x726576656c6172, 0x72657669736f72,
  0x7265766f6c7461, 0x72696163686f, 0x72696361, 0x7269676964657a, 0x7269676f726f736f, 0x72696d6172, 0x72696e677565, 0x726973616461,
  0x726973636f, 0x7269736f6e686f, 0x726f62616c6f, 0x726f636865646f, 0x726f64616461, 0x726f6465696f, 0x726f646f766961, 0x726f65646f72,
  0x726f6c657461, 0x726f6d616e6f, 0x726f6e636172, 0x726f7361646f, 0x726f7365697261, 0x726f73746f, 0x726f7461, 0x726f746569726f,
  0x726f74696e61, 0x726f74756c6172, 0x726f75636f, 0x726f757061, 0x726f786f, 0x727562726f, 0x72756769646f, 0x7275676f736f,
  0x727569766f, 0x72756d6f, 0x7275706573747265, 0x727573736f, 0x7361626f72, 0x736163696172, 0x7361636f6c61, 0x73616375646972,
  0x736164696f, 0x736166697261, 0x73616761, 0x73616772616461, 0x73616962726f, 0x73616c616461, 0x73616c6569726f, 0x73616c6761646f,
  0x73616c697661, 0x73616c7069636172, 0x73616c7369636861, 0x73616c746172, 0x73616c7661646f72, 0x73616d626172, 0x73616d75726169, 0x73616e6172,
  0x73616e666f6e61, 0x73616e677565, 0x73616e6964616465, 0x73617061746f, 0x7361726461, 0x73617267656e746f, 0x7361726a657461, 0x73617475726172,
  0x73617564616465, 0x7361786f666f6e65, 0x73617a6f6e616c, 0x7365636172, 0x736563756c6172, 0x73656461, 0x736564656e746f, 0x7365646961646f,
  0x7365646f736f, 0x73656475746f72, 0x7365676d656e746f, 0x7365677265646f, 0x736567756e646f, 0x7365697661, 0x73656c65746f, 0x73656c766167656d,
  0x73656d616e616c, 0x73656d656e7465, 0x73656e61646f72, 0x73656e686f72, 0x73656e7375616c, 0x73656e7461646f, 0x736570617261646f, 0x736572656961,
  0x736572696e6761, 0x7365727261, 0x736572766f, 0x736574656d62726f, 0x7365746f72, 0x736967696c6f, 0x73696c6875657461, 0x73696c69636f6e65,
  0x73696d6574726961, 0x73696d7061746961, 0x73696d756c6172, 0x73696e616c, 0x73696e6365726f, 0x73696e67756c6172, 0x73696e6f707365, 0x73696e746f6e6961,
  0x736972656e65, 0x73697269, 0x7369747561646f, 0x736f626572616e6f, 0x736f627261, 0x736f636f72726f, 0x736f67726f, 0x736f6a61]
private def pt14 : List Nat := [
  0x736f6c6461, 0x736f6c6574726172, 0x736f6c746569726f, 0x736f6d6272696f, 0x736f6e617461, 0x736f6e646172, 0x736f6e65676172, 0x736f6e6861646f72,
  0x736f6e6f, 0x736f7072616e6f, 0x736f7175657465, 0x736f72726972, 0x736f727465696f, 0x736f737365676f, 0x736f7461717565, 0x736f746572726172,
  0x736f7661646f, 0x736f7a696e686f, 0x73756176697a6172, 0x737562696461, 0x7375626d6572736f, 0x737562736f6c6f, 0x7375627472616972, 0x737563617461,
  0x7375636573736f, 0x7375636f, 0x73756465737465, 0x73756669786f, 0x73756761646f72, 0x73756765726972, 0x73756a6569746f, 0x73756c6661746f,
  0x73756d6972, 0x73756f72, 0x7375706572696f72, 0x7375706c69636172, 0x7375706f73746f, 0x73757072696d6972, 0x73757264696e61, 0x7375726669737461,
  0x7375727072657361, 0x7375727265616c, 0x737572746972, 0x7375737069726f, 0x73757374656e746f, 0x746162656c61, 0x7461626c657465, 0x74616275616461,
  0x746163686f, 0x7461676172656c61, 0x74616c686572, 0x74616c6f, 0x74616c76657a, 0x74616d616e686f, 0x74616d626f72696d, 0x74616d7061,
  0x74616e67656e7465, 0x74616e746f, 0x7461706172, 0x746170696f6361, 0x74617264696f, 0x746172656661, 0x7461726a61, 0x74617272617861,
  0x746174756167656d, 0x74617572696e6f, 0x746178617469766f, 0x74617869737461, 0x7465617472616c, 0x7465636572, 0x74656369646f, 0x7465636c61646f,
  0x746564696f736f, 0x74656961, 0x7465696d6172, 0x74656c65666f6e65, 0x74656c6861646f, 0x74656d7065726f, 0x74656e656e7465, 0x74656e736f72,
  0x74656e746172, 0x7465726d616c, 0x7465726e6f, 0x74657272656e6f, 0x74657365, 0x7465736f757261, 0x7465737461646f, 0x7465746f,
  0x74657874757261, 0x74657875676f, 0x7469617261, 0x746967656c61, 0x74696a6f6c6f, 0x74696d62726172, 0x74696d6964657a, 0x74696e6769646f,
  0x74696e746569726f, 0x7469726167656d, 0x746974756c6172, 0x746f616c6861, 0x746f636861, 0x746f6c65726172, 0x746f6c696365, 0x746f6d616461,
  0x746f6d696c686f, 0x746f6e656c, 0x746f6e74757261, 0x746f70657465, 0x746f7261, 0x746f726369646f, 0x746f726e65696f, 0x746f72717565,
  0x746f7272616461, 0x746f72746f, 0x746f73746172, 0x746f756361, 0x746f757065697261, 0x746f78696e61, 0x74726162616c686f, 0x74726163656a6172,
  0x7472616475746f72, 0x7472616665676172, 0x7472616a65746f, 0x7472616d61, 0x7472616e636172, 0x747261706f, 0x747261736569726f, 0x7472617461646f72]
private def pt15 : List Nat := [
  0x747261766172, 0x747265696e6f, 0x7472656d6572, 0x7472657069646172, 0x747265766f, 0x7472696167656d, 0x747269626f, 0x7472696369636c6f,
  0x74726964656e7465, 0x7472696c6f676961, 0x7472696e64616465, 0x747269706c6f, 0x7472697475726172, 0x747269756e66616c, 0x74726f636172, 0x74726f6d62657461,
  0x74726f7661, 0x7472756e666f, 0x747275717565, 0x747562756c6172, 0x747563616e6f, 0x7475646f, 0x74756c697061, 0x74757069,
  0x747572626f, 0x7475726d61, 0x7475727175657361, 0x747574656c6172, 0x7475746f7269616c, 0x7569766172, 0x756d6269676f, 0x756e6861,
  0x756e6964616465, 0x756e69666f726d65, 0x75726f6c6f676961, 0x7572736f, 0x757274696761, 0x7572756275, 0x757361646f, 0x7573696e61,
  0x7573756672756972, 0x766163696e61, 0x766164696172, 0x76616761726f736f, 0x766169646f736f, 0x76616c61, 0x76616c656e7465, 0x76616c6964616465,
  0x76616c6f726573, 0x76616e746167656d, 0x766171756569726f, 0x766172616e6461, 0x766172657461, 0x766172726572, 0x76617363756c6172, 0x766173696c6861,
  0x766173736f757261, 0x76617a6172, 0x76617a696f, 0x766561646f, 0x7665646172, 0x76656765746172, 0x76656963756c6172, 0x76656c6569726f,
  0x76656c68696365, 0x76656c75646f, 0x76656e6365646f72, 0x76656e646176616c, 0x76656e65726172, 0x76656e747265, 0x76657262616c, 0x76657264616465,
  0x7665726561646f72, 0x766572676f6e6861, 0x7665726d656c686f, 0x7665726e697a, 0x766572736172, 0x76657274656e7465, 0x7665737061, 0x7665737469646f,
  0x7665746f7269616c, 0x7669616475746f, 0x76696167656d, 0x7669616a6172, 0x76696174757261, 0x7669627261646f72, 0x76696465697261, 0x7669647261726961,
  0x7669656c61, 0x76696761, 0x766967656e7465, 0x766967696172, 0x7669676f726172, 0x76696c6172656a6f, 0x76696e636f, 0x76696e68657461,
  0x76696e696c, 0x76696f6c657461, 0x766972616461, 0x76697274756465, 0x76697369746172, 0x766973746f, 0x76697472616c, 0x7669766569726f,
  0x76697a696e686f, 0x766f61646f72, 0x766f6172, 0x766f67616c, 0x766f6c616e7465, 0x766f6c6569626f6c, 0x766f6c746167656d, 0x766f6c756d6f736f,
  0x766f6e74616465, 0x76756c746f, 0x767576757a656c61, 0x78616472657a, 0x7861726f7065, 0x7865717565, 0x78657265746172, 0x786572696665,
  0x78696e676172, 0x7a616e6761646f, 0x7a6172706172, 0x7a656275, 0x7a656c61646f72, 0x7a6f6d626172, 0x7a6f6f6c6f676961, 0x7a756d6269646f]

/-- Words 2048, src/words/catalogs/mnemonic.cpp:10304-12357. -/
def pt : List Nat :=
  (pt0 ++ (pt1 ++ (pt2 ++ (pt3 ++ (pt4 ++ (pt5 ++ (pt6 ++ (pt7 ++ (pt8 ++ (pt9 ++ (pt10 ++ (pt11 ++ (pt12 ++ (pt13 ++ (pt14 ++ (pt15))))))))))))))))

end Verif.Catalog
