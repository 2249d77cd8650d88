/-!
# The `it` word list of src/words/catalogs/mnemonic.cpp:4139-6192 (generated by tools/gen_words.py)

Each word is the number its UTF-8 bytes spell, most significant byte first.
-/
namespace Verif.Catalog

private def it0 : List Nat := [
  0x616261636f, 0x61626261676c696f, 0x616262696e61746f, 0x6162657465, 0x61626973736f, 0x61626f6c697265, 0x616272617369766f, 0x6162726f6761746f,
  0x6163636164657265, 0x616363656e6e6f, 0x616363757361746f, 0x616365746f6e65, 0x616368696c6c65, 0x616369646f, 0x6163717561, 0x61637265,
  0x616372696c69636f, 0x6163726f62617461, 0x616375746f, 0x61646167696f, 0x616464656269746f, 0x6164646f6d65, 0x616465677561746f, 0x61646572697265,
  0x6164697065, 0x61646f7474617265, 0x6164756c617265, 0x6166666162696c65, 0x6166666574746f, 0x6166666973736f, 0x61666672616e746f, 0x61666f7269736d61,
  0x61666f736f, 0x6166726963616e6f, 0x6167617665, 0x6167656e7465, 0x616765766f6c65, 0x616767616e63696f, 0x6167697265, 0x61676974617265,
  0x61676f6e69736d6f, 0x61677269636f6c6f, 0x616772756d65746f, 0x6167757a7a6f, 0x616c616261726461, 0x616c61746f, 0x616c626174726f, 0x616c62657261746f,
  0x616c626f, 0x616c62756d65, 0x616c6365, 0x616c636f6c69636f, 0x616c6574746f6e65, 0x616c6661, 0x616c6765627261, 0x616c69616e7465,
  0x616c696269, 0x616c696d656e746f, 0x616c6c616761746f, 0x616c6c6567726f, 0x616c6c6965766f, 0x616c6c6f646f6c61, 0x616c6c757369766f, 0x616c6d656e6f,
  0x616c6f67656e6f, 0x616c70616361, 0x616c706573747265, 0x616c74616c656e61, 0x616c7465726e6f, 0x616c74696363696f, 0x616c74726f7665, 0x616c756e6e6f,
  0x616c76656f6c6f, 0x616c7a617265, 0x616d616c67616d61, 0x616d616e697461, 0x616d6172656e61, 0x616d6269746f, 0x616d627261746f, 0x616d656261,
  0x616d6572696361, 0x616d657469737461, 0x616d69636f, 0x616d6d6173736f, 0x616d6d656e6461, 0x616d6d6972617265, 0x616d6d6f6e69746f, 0x616d6f7265,
  0x616d70696f, 0x616d706c69617265, 0x616d756c65746f, 0x616e61636172646f, 0x616e616772616665, 0x616e616c69737461, 0x616e617263686961, 0x616e61747261,
  0x616e6361, 0x616e63656c6c61, 0x616e636f7261, 0x616e64617265, 0x616e64726561, 0x616e656c6c6f, 0x616e67656c6f, 0x616e676f6c617265,
  0x616e677573746f, 0x616e696d61, 0x616e6e6567617265, 0x616e6e696461746f, 0x616e6e6f, 0x616e6e756e63696f, 0x616e6f6e696d6f, 0x616e74696369706f,
  0x616e7a69, 0x6170617469636f, 0x6170657274757261, 0x61706f6465, 0x6170706172697265, 0x617070657469746f, 0x6170706f6767696f, 0x617070726f646f,
  0x617070756e746f, 0x617072696c65, 0x61726162696361, 0x6172616368696465, 0x617261676f737461, 0x6172616c64696361, 0x6172616e63696f, 0x61726174757261]
private def it1 : List Nat := [
  0x6172617a7a6f, 0x6172626974726f, 0x617263686976696f, 0x61726469746f, 0x6172656e696c65, 0x617267656e746f, 0x617267696e65, 0x61726775746f,
  0x61726961, 0x61726d6f6e6961, 0x61726e657365, 0x617272656461746f, 0x617272696e6761, 0x6172726f73746f, 0x617273656e69636f, 0x6172736f,
  0x6172746566696365, 0x61727a696c6c6f, 0x617363697574746f, 0x6173636f6c746f, 0x617365707369, 0x617365747469636f, 0x617366616c746f, 0x6173696e6f,
  0x61736f6c61, 0x617370697261746f, 0x617370726f, 0x617373616767696f, 0x61737365, 0x6173736f6c75746f, 0x6173737572646f, 0x61737461,
  0x617374656e75746f, 0x617374696365, 0x617374726174746f, 0x6174617669636f, 0x61746569736d6f, 0x61746f6d69636f, 0x61746f6e6f, 0x617474657361,
  0x6174746976617265, 0x6174746f726e6f, 0x6174747269746f, 0x61747475616c65, 0x617573696c696f, 0x61757374726961, 0x61757469737461, 0x6175746f6e6f6d6f,
  0x617574756e6e6f, 0x6176616e7a61746f, 0x6176657265, 0x617676656e697265, 0x61767669736f, 0x6176766f6c67657265, 0x617a696f6e65, 0x617a6f746f,
  0x617a7a696d6f, 0x617a7a7572726f, 0x626162656c65, 0x62616363616e6f, 0x626163696e6f, 0x6261636f, 0x62616465737361, 0x626164696c617461,
  0x6261676e61746f, 0x6261697461, 0x62616c636f6e65, 0x62616c646f, 0x62616c656e61, 0x62616c6c617461, 0x62616c7a616e6f, 0x62616d62696e6f,
  0x62616e64697265, 0x626172616f6e6461, 0x6261726261726f, 0x6261726361, 0x62617269746f6e6f, 0x6261726c756d65, 0x6261726f63636f, 0x626173696c69636f,
  0x626173736f, 0x6261746f737461, 0x6261747475746f, 0x6261756c65, 0x62617661, 0x6261766f7361, 0x626563636f, 0x6265666661,
  0x62656c67696f, 0x62656c7661, 0x62656e6461, 0x62656e65766f6c65, 0x62656e69676e6f, 0x62656e7a696e61, 0x62657265, 0x6265726c696e61,
  0x62657461, 0x626962697461, 0x62696369, 0x6269646f6e65, 0x62696669646f, 0x62696761, 0x62696c616e636961, 0x62696d626f,
  0x62696e6f636f6c6f, 0x62696f6c6f676f, 0x626970656465, 0x6269706f6c617265, 0x62697262616e7465, 0x6269727261, 0x626973636f74746f, 0x6269736573746f,
  0x6269736e6f6e6e6f, 0x6269736f6e7465, 0x62697374757269, 0x62697a7a6172726f, 0x626c616e646f, 0x626c61747461, 0x626f6c6c69746f, 0x626f6e696669636f,
  0x626f72646f, 0x626f73636f, 0x626f74616e69636f, 0x626f7474696e6f, 0x626f7a7a6f6c6f, 0x6272616363696f, 0x6272616469706f, 0x6272616d61]
private def it2 : List Nat := [
  0x6272616e6361, 0x62726176757261, 0x62726574656c6c61, 0x627265766574746f, 0x6272657a7a61, 0x627269676c6961, 0x6272696c6c616e7465, 0x6272696e64617265,
  0x62726f63636f6c6f, 0x62726f646f, 0x62726f6e7a696e61, 0x6272756c6c6f, 0x6272756e6f, 0x627562626f6e65, 0x62756361, 0x627564696e6f,
  0x627566666f6e65, 0x6275696f, 0x62756c626f, 0x62756f6e6f, 0x6275726c6f6e65, 0x6275727261736361, 0x627573736f6c61, 0x6275737461,
  0x6361646574746f, 0x63616475636f, 0x63616c616d61726f, 0x63616c636f6c6f, 0x63616c65737365, 0x63616c6962726f, 0x63616c6d6f, 0x63616c6f726961,
  0x63616d62757361, 0x63616d6572617461, 0x63616d69636961, 0x63616d6d696e6f, 0x63616d6f6c61, 0x63616d70616c65, 0x63616e617061, 0x63616e64656c61,
  0x63616e65, 0x63616e696e6f, 0x63616e6f74746f, 0x63616e74696e61, 0x636170616365, 0x636170656c6c6f, 0x63617069746f6c6f, 0x6361706f6769726f,
  0x6361707065726f, 0x6361707261, 0x63617073756c61, 0x6361726170616365, 0x6361726361737361, 0x636172646f, 0x63617269736d61, 0x6361726f76616e61,
  0x636172726574746f, 0x636172746f6c696e61, 0x636173616363696f, 0x63617363617461, 0x63617365726d61, 0x6361736f, 0x636173736f6e65, 0x63617374656c6c6f,
  0x63617375616c65, 0x63617461737461, 0x636174656e61, 0x63617472616d65, 0x636175746f, 0x636176696c6c6f, 0x6365646962696c65, 0x63656472617461,
  0x636566616c6f, 0x63656c65627265, 0x63656c6c756c617265, 0x63656e61, 0x63656e6f6e65, 0x63656e746573696d6f, 0x636572616d696361, 0x63657263617265,
  0x636572746f, 0x636572756d65, 0x63657276656c6c6f, 0x6365736f6961, 0x636573706f, 0x6365746f, 0x6368656c61, 0x63686961726f,
  0x636869636361, 0x6368696564657265, 0x6368696d657261, 0x6368696e61, 0x636869727572676f, 0x6368697461727261, 0x6369616f, 0x6369636c69736d6f,
  0x63696672617265, 0x6369676e6f, 0x63696c696e64726f, 0x63696f74746f6c6f, 0x6369726361, 0x636972726f7369, 0x6369747269636f, 0x636974746164696e6f,
  0x63697566666f, 0x63697665747461, 0x636976696c65, 0x636c61737369636f, 0x636c696e696361, 0x636c6f726f, 0x636f63636f, 0x636f646172646f,
  0x636f64696365, 0x636f6572656e7465, 0x636f676e6f6d65, 0x636f6c6c617265, 0x636f6c6d61746f, 0x636f6c6f7265, 0x636f6c706f736f, 0x636f6c74697661746f,
  0x636f6c7a61, 0x636f6d61, 0x636f6d657461, 0x636f6d6d616e646f, 0x636f6d6f646f, 0x636f6d7075746572, 0x636f6d756e65, 0x636f6e6369736f]
private def it3 : List Nat := [
  0x636f6e6475727265, 0x636f6e6665726d61, 0x636f6e67656c617265, 0x636f6e69756765, 0x636f6e6e6573736f, 0x636f6e6f7363657265, 0x636f6e73756d6f, 0x636f6e74696e756f,
  0x636f6e7665676e6f, 0x636f706572746f, 0x636f70696f6e65, 0x636f70706961, 0x636f7072696361706f, 0x636f72617a7a61, 0x636f7264617461, 0x636f72696361746f,
  0x636f726e696365, 0x636f726f6c6c61, 0x636f72706f, 0x636f727265646f, 0x636f72736961, 0x636f7274657365, 0x636f736d69636f, 0x636f7374616e7465,
  0x636f7474757261, 0x636f7661746f, 0x63726174657265, 0x6372617661747461, 0x63726561746f, 0x63726564657265, 0x6372656d6f736f, 0x6372657363697461,
  0x6372657461, 0x6372696365746f, 0x6372696e616c65, 0x6372697369, 0x6372697469636f, 0x63726f6365, 0x63726f6e616361, 0x63726f7374617461,
  0x6372756369616c65, 0x637275736361, 0x637563697265, 0x637563756c6f, 0x637567696e6f, 0x63756c6c61746f, 0x6375706f6c61, 0x63757261746f7265,
  0x637572736f7265, 0x637572766f, 0x63757363696e6f, 0x637573746f6465, 0x6461646f, 0x6461696e6f, 0x64616c6d617461, 0x64616d6572696e6f,
  0x64616e69656c61, 0x64616e6e6f736f, 0x64616e7a617265, 0x64617461746f, 0x646176616e7469, 0x6461767665726f, 0x6465627574746f, 0x646563656e6e696f,
  0x64656369736f, 0x6465636c696e6f, 0x6465636f6c6c6f, 0x6465637265746f, 0x646564696361746f, 0x646566696e69746f, 0x6465666f726d65, 0x6465676e6f,
  0x64656c6567617265, 0x64656c66696e6f, 0x64656c6972696f, 0x64656c7461, 0x64656d656e7a61, 0x64656e6f7461746f, 0x64656e74726f, 0x6465706f7369746f,
  0x6465726170617461, 0x6465726976617265, 0x6465726f6761, 0x64657363726974746f, 0x6465736572746f, 0x64657369646572696f, 0x646573756d657265, 0x64657465727369766f,
  0x6465766f746f, 0x6469616d6574726f, 0x646963656d627265, 0x64696564726f, 0x64696665736f, 0x6469666675736f, 0x6469676572697265, 0x6469676974616c65,
  0x64696c7576696f, 0x64696e616d69636f, 0x64696e6e616e7a69, 0x646970696e746f, 0x6469706c6f6d61, 0x6469706f6c6f, 0x6469726164617265, 0x64697265,
  0x6469726f74746f, 0x64697275706f, 0x6469736167696f, 0x646973637265746f, 0x64697366617265, 0x64697367656c6f, 0x646973706f73746f, 0x64697374616e7a61,
  0x646973756d616e6f, 0x6469746f, 0x646976616e6f, 0x646976656c746f, 0x6469766964657265, 0x6469766f7261746f, 0x646f626c6f6e65, 0x646f63656e7465,
  0x646f67616e616c65, 0x646f676d61, 0x646f6c6365, 0x646f6d61746f, 0x646f6d656e696361, 0x646f6d696e617265, 0x646f6e646f6c6f, 0x646f6e6f]
private def it4 : List Nat := [
  0x646f726d697265, 0x646f7465, 0x646f74746f7265, 0x646f7675746f, 0x646f7a7a696e61, 0x647261676f, 0x64727569646f, 0x64756262696f,
  0x6475626974617265, 0x647563616c65, 0x64756e61, 0x64756f6d6f, 0x6475706c696365, 0x647572617475726f, 0x6562616e6f, 0x6563636573736f,
  0x6563636f, 0x65636c69737369, 0x65636f6e6f6d6961, 0x6564657261, 0x656469636f6c61, 0x6564696c65, 0x656469746f726961, 0x65647563617265,
  0x6567656d6f6e6961, 0x65676c69, 0x65676f69736d6f, 0x6567726567696f, 0x656c61626f7261746f, 0x656c617267697265, 0x656c6567616e7465, 0x656c656e6361746f,
  0x656c6574746f, 0x656c6576617265, 0x656c6669636f, 0x656c696361, 0x656c6d6f, 0x656c7361, 0x656c75736f, 0x656d616e61746f,
  0x656d626c656d61, 0x656d6573736f, 0x656d69726f, 0x656d6f7469766f, 0x656d6f7a696f6e65, 0x656d70697269636f, 0x656d756c6f, 0x656e64656d69636f,
  0x656e6475726f, 0x656e6572676961, 0x656e66617369, 0x656e6f74656361, 0x656e7472617265, 0x656e7a696d61, 0x65706174697465, 0x6570696c6f676f,
  0x657069736f64696f, 0x65706f63616c65, 0x657070757265, 0x65717561746f7265, 0x65726172696f, 0x65726261, 0x6572626f736f, 0x6572656465,
  0x6572656d697461, 0x65726967657265, 0x65726d657469636f, 0x65726f65, 0x65726f7369766f, 0x657272616e7465, 0x657361676f6e6f, 0x6573616d65,
  0x6573616e696d65, 0x6573617564697265, 0x65736361, 0x6573656d70696f, 0x657365726369746f, 0x6573696269746f, 0x65736967656e7465, 0x6573697374657265,
  0x657369746f, 0x65736f6661676f, 0x65736f727461746f, 0x65736f736f, 0x657370616e736f, 0x657370726573736f, 0x657373656e7a61, 0x6573736f,
  0x65737465736f, 0x657374696d617265, 0x6573746f6e6961, 0x657374726f736f, 0x6573756c74617265, 0x6574696c69636f, 0x65746e69636f, 0x6574727573636f,
  0x6574746f, 0x6575636c6964656f, 0x6575726f7061, 0x657661736f, 0x65766964656e7a61, 0x6576697461746f, 0x65766f6c75746f, 0x657676697661,
  0x6661626272696361, 0x66616363656e6461, 0x6661636869726f, 0x66616c636f, 0x66616d69676c6961, 0x66616e616c65, 0x66616e66617261, 0x66616e676f,
  0x66616e7461736d61, 0x66617265, 0x66617266616c6c61, 0x666172696e6f736f, 0x6661726d61636f, 0x666173636961, 0x666173746f736f, 0x666173756c6c6f,
  0x6661746963617265, 0x6661746f, 0x6661766f6c6f736f, 0x666562627265, 0x6665636f6c61, 0x66656465, 0x66656761746f, 0x66656c7061]
private def it5 : List Nat := [
  0x66656c74726f, 0x66656d6d696e61, 0x66656e64657265, 0x66656e6f6d656e6f, 0x6665726d656e746f, 0x666572726f, 0x66657274696c65, 0x66657373757261,
  0x6665737469766f, 0x6665747461, 0x666575646f, 0x6669616261, 0x66696475636961, 0x66696661, 0x666967757261746f, 0x66696c6f,
  0x66696e616e7a61, 0x66696e6573747261, 0x66696e697265, 0x66696f7265, 0x66697363616c65, 0x66697369636f, 0x6669756d65, 0x666c61636f6e65,
  0x666c616d656e636f, 0x666c65626f, 0x666c656d6d61, 0x666c6f7269646f, 0x666c75656e7465, 0x666c756f726f, 0x666f6269636f, 0x666f636163636961,
  0x666f636f736f, 0x666f64657261746f, 0x666f676c696f, 0x666f6c617461, 0x666f6c636c6f7265, 0x666f6c676f7265, 0x666f6e64656e7465, 0x666f6e657469636f,
  0x666f6e6961, 0x666f6e74616e61, 0x666f726269746f, 0x666f72636865747461, 0x666f7265737461, 0x666f726d696361, 0x666f726e61696f, 0x666f726f,
  0x666f7274657a7a61, 0x666f727a617265, 0x666f736661746f, 0x666f73736f, 0x667261636173736f, 0x6672616e61, 0x6672617373696e6f, 0x66726174656c6c6f,
  0x667265636365747461, 0x6672656e617461, 0x66726573636f, 0x667269676f, 0x66726f6c6c696e6f, 0x66726f6e6465, 0x66727567616c65, 0x667275747461,
  0x667563696c617461, 0x667563736961, 0x66756767656e7465, 0x66756c6d696e65, 0x66756c766f, 0x66756d616e7465, 0x66756d6574746f, 0x66756d6f736f,
  0x66756e65, 0x66756e7a696f6e65, 0x66756f636f, 0x667572626f, 0x667572676f6e65, 0x6675726f7265, 0x6675736f, 0x667574696c65,
  0x6761626269616e6f, 0x6761666665, 0x67616c6174656f, 0x67616c6c696e61, 0x67616c6f70706f, 0x67616d6265726f, 0x67616d6d61, 0x676172616e7a6961,
  0x676172626f, 0x6761726f66616e6f, 0x6761727a6f6e65, 0x676173646f74746f, 0x6761736f6c696f, 0x676173747269636f, 0x676174746f, 0x67617564696f,
  0x67617a65626f, 0x67617a7a656c6c61, 0x6765636f, 0x67656c6174696e61, 0x67656c736f, 0x67656d656c6c6f, 0x67656d6d61746f, 0x67656e65,
  0x67656e69746f7265, 0x67656e6e61696f, 0x67656e6f7469706f, 0x676572676f, 0x676865706172646f, 0x676869616363696f, 0x6768697361, 0x6769616c6c6f,
  0x67696c6461, 0x67696e6570726f, 0x67696f63617265, 0x67696f69656c6c6f, 0x67696f726e6f, 0x67696f7665, 0x67697261746f, 0x6769726f6e65,
  0x67697474617461, 0x67697564697a696f, 0x6769757261746f, 0x67697573746f, 0x676c6f62756c6f, 0x676c7574696e65, 0x676e6f6d6f, 0x676f626261]
private def it6 : List Nat := [
  0x676f6c66, 0x676f6d69746f, 0x676f6d6d6f6e65, 0x676f6e66696f, 0x676f6e6e61, 0x676f7665726e6f, 0x67726163696c65, 0x677261646f,
  0x6772616669636f, 0x6772616d6d6f, 0x6772616e6465, 0x6772617474617265, 0x677261766f736f, 0x6772617a6961, 0x6772656361, 0x677265676765,
  0x677269666f6e65, 0x67726967696f, 0x6772696e7a61, 0x67726f747461, 0x67727570706f, 0x6775616461676e6f, 0x677561696f, 0x6775616e746f,
  0x6775617264617265, 0x6775666f, 0x67756964617265, 0x696265726e61746f, 0x69636f6e61, 0x6964656e7469636f, 0x6964696c6c696f, 0x69646f6c6f,
  0x69647261, 0x69647269636f, 0x6964726f67656e6f, 0x696769656e65, 0x69676e61726f, 0x69676e6f7261746f, 0x696c617265, 0x696c6c65736f,
  0x696c6c6f6769636f, 0x696c6c7564657265, 0x696d62616c6c6f, 0x696d62657675746f, 0x696d626f63636f, 0x696d6275746f, 0x696d6d616e65, 0x696d6d6572736f,
  0x696d6d6f6c61746f, 0x696d706163636f, 0x696d7065746f, 0x696d706965676f, 0x696d706f72746f, 0x696d70726f6e7461, 0x696e616c617265, 0x696e617263617265,
  0x696e61747469766f, 0x696e63616e746f, 0x696e63656e64696f, 0x696e6368696e6f, 0x696e63697369766f, 0x696e636c75736f, 0x696e636f6e74726f, 0x696e63726f63696f,
  0x696e6375626f, 0x696e646167696e65, 0x696e646961, 0x696e646f6c65, 0x696e656469746f, 0x696e6661747469, 0x696e66696c617265, 0x696e666c6974746f,
  0x696e67616767696f, 0x696e6765676e6f, 0x696e676c657365, 0x696e676f72646f, 0x696e67726f73736f, 0x696e6e6573636f, 0x696e6f646f7265, 0x696e6f6c7472617265,
  0x696e6f6e6461746f, 0x696e73616e6f, 0x696e736574746f, 0x696e7369656d65, 0x696e736f6e6e6961, 0x696e73756c696e61, 0x696e74617361746f, 0x696e7465726f,
  0x696e746f6e61636f, 0x696e747569746f, 0x696e756d6964697265, 0x696e76616c69646f, 0x696e76656365, 0x696e7669746f, 0x69706572626f6c65, 0x69706e6f7469636f,
  0x69706f74657369, 0x697070696361, 0x6972696465, 0x69726c616e6461, 0x69726f6e69636f, 0x697272696761746f, 0x6972726f72617265, 0x69736f6c61746f,
  0x69736f746f706f, 0x697374657269636f, 0x697374697475746f, 0x69737472696365, 0x6974616c6961, 0x69746572617265, 0x6c616262726f, 0x6c61626972696e746f,
  0x6c61636361, 0x6c6163657261746f, 0x6c616372696d61, 0x6c6163756e61, 0x6c6164646f7665, 0x6c61676f, 0x6c616d706f, 0x6c616e6365747461,
  0x6c616e7465726e61, 0x6c6172646f736f, 0x6c61726761, 0x6c6172696e6765, 0x6c6173747261, 0x6c6174656e7a61, 0x6c6174696e6f, 0x6c617474756761]
private def it7 : List Nat := [
  0x6c617661676e61, 0x6c61766f726f, 0x6c6567616c65, 0x6c65676765726f, 0x6c656d626f, 0x6c656e74657a7a61, 0x6c656e7a61, 0x6c656f6e65,
  0x6c65707265, 0x6c657369766f, 0x6c65737361746f, 0x6c6573746f, 0x6c6574746572616c65, 0x6c657661, 0x6c6576696761746f, 0x6c696265726f,
  0x6c69646f, 0x6c69657669746f, 0x6c696c6c61, 0x6c696d6174757261, 0x6c696d6974617265, 0x6c696d7069646f, 0x6c696e65617265, 0x6c696e677561,
  0x6c69717569646f, 0x6c697261, 0x6c6972696361, 0x6c69736361, 0x6c697465, 0x6c69746967696f, 0x6c6976726561, 0x6c6f63616e6461,
  0x6c6f6465, 0x6c6f67696361, 0x6c6f6d62617265, 0x6c6f6e647261, 0x6c6f6e6765766f, 0x6c6f7175616365, 0x6c6f72656e7a6f, 0x6c6f746f,
  0x6c6f747465726961, 0x6c756365, 0x6c7563696461746f, 0x6c756d616361, 0x6c756d696e6f736f, 0x6c756e676f, 0x6c75706f, 0x6c7570706f6c6f,
  0x6c7573696e6761, 0x6c7573736f, 0x6c7574746f, 0x6d61636162726f, 0x6d61636368696e61, 0x6d616365726f, 0x6d6163696e61746f, 0x6d6164616d61,
  0x6d616769636f, 0x6d61676c6961, 0x6d61676e657465, 0x6d6167726f, 0x6d61696f6c696361, 0x6d616c6166656465, 0x6d616c677261646f, 0x6d616c696e7465736f,
  0x6d616c73616e6f, 0x6d616c746f, 0x6d616c756d6f7265, 0x6d616e61, 0x6d616e636961, 0x6d616e646f726c61, 0x6d616e6769617265, 0x6d616e69666573746f,
  0x6d616e6e61726f, 0x6d616e6f767261, 0x6d616e7361726461, 0x6d616e74696465, 0x6d616e756272696f, 0x6d61707061, 0x6d617261746f6e61, 0x6d617263697265,
  0x6d617265747461, 0x6d61726d6f, 0x6d6172737570696f, 0x6d61736368657261, 0x6d617373616961, 0x6d617374696e6f, 0x6d617465726173736f, 0x6d61747269636f6c61,
  0x6d6174746f6e65, 0x6d617475726f, 0x6d617a75726361, 0x6d65616e64726f, 0x6d656363616e69636f, 0x6d6563656e617465, 0x6d65646573696d6f, 0x6d65646974617265,
  0x6d656761, 0x6d656c61737361, 0x6d656c6973, 0x6d656c6f646961, 0x6d656e696e6765, 0x6d656e6f, 0x6d656e736f6c61, 0x6d6572637572696f,
  0x6d6572656e6461, 0x6d65726c6f, 0x6d65736368696e6f, 0x6d657365, 0x6d657373657265, 0x6d6573746f6c6f, 0x6d6574616c6c6f, 0x6d65746f646f,
  0x6d657474657265, 0x6d6961676f6c617265, 0x6d696361, 0x6d6963656c696f, 0x6d696368656c65, 0x6d6963726f626f, 0x6d69646f6c6c6f, 0x6d69656c65,
  0x6d69676c696f7265, 0x6d696c616e6f, 0x6d696c697465, 0x6d696d6f7361, 0x6d696e6572616c65, 0x6d696e69, 0x6d696e6f7265, 0x6d6972696e6f]
private def it8 : List Nat := [
  0x6d697274696c6c6f, 0x6d697363656c61, 0x6d697373697661, 0x6d6973746f, 0x6d69737572617265, 0x6d6974657a7a61, 0x6d69746967617265, 0x6d69747261,
  0x6d697474656e7465, 0x6d6e656d6f6e69636f, 0x6d6f64656c6c6f, 0x6d6f646966696361, 0x6d6f64756c6f, 0x6d6f67616e6f, 0x6d6f67696f, 0x6d6f6c65,
  0x6d6f6c6f73736f, 0x6d6f6e61737465726f, 0x6d6f6e636f, 0x6d6f6e64696e61, 0x6d6f6e65746172696f, 0x6d6f6e696c65, 0x6d6f6e6f746f6e6f, 0x6d6f6e736f6e65,
  0x6d6f6e7461746f, 0x6d6f6e7669736f, 0x6d6f7261, 0x6d6f7264657265, 0x6d6f7273696361746f, 0x6d6f7374726f, 0x6d6f74697661746f, 0x6d6f746f73656761,
  0x6d6f74746f, 0x6d6f76656e7a61, 0x6d6f76696d656e746f, 0x6d6f7a7a6f, 0x6d75636361, 0x6d75636f7361, 0x6d75666661, 0x6d7567686574746f,
  0x6d75676e61696f, 0x6d756c6174746f, 0x6d756c696e656c6c6f, 0x6d756c7469706c6f, 0x6d756d6d6961, 0x6d756e746f, 0x6d756f76657265, 0x6d7572616c65,
  0x6d757361, 0x6d7573636f6c6f, 0x6d7573696361, 0x6d757465766f6c65, 0x6d75746f, 0x6e61626162626f, 0x6e61667461, 0x6e616e6f6d6574726f,
  0x6e61726369736f, 0x6e6172696365, 0x6e61727261746f, 0x6e617363657265, 0x6e61737472617265, 0x6e61747572616c65, 0x6e617574696361, 0x6e617669676c696f,
  0x6e6562756c6f7361, 0x6e6563726f7369, 0x6e6567617469766f, 0x6e65676f7a696f, 0x6e656d6d656e6f, 0x6e656f66697461, 0x6e65726574746f, 0x6e6572766f,
  0x6e657373756e6f, 0x6e657474756e6f, 0x6e65757472616c65, 0x6e657665, 0x6e6576726f7469636f, 0x6e696363686961, 0x6e696e6661, 0x6e697469646f,
  0x6e6f62696c65, 0x6e6f6369766f, 0x6e6f646f, 0x6e6f6d65, 0x6e6f6d696e61, 0x6e6f726469636f, 0x6e6f726d616c65, 0x6e6f72766567657365,
  0x6e6f737472616e6f, 0x6e6f74617265, 0x6e6f74697a6961, 0x6e6f747475726e6f, 0x6e6f76656c6c61, 0x6e75636c656f, 0x6e756c6c61, 0x6e756d65726f,
  0x6e756f766f, 0x6e757472697265, 0x6e75766f6c61, 0x6e757a69616c65, 0x6f617369, 0x6f62626564697265, 0x6f62626c69676f, 0x6f62656c6973636f,
  0x6f626c696f, 0x6f626f6c6f, 0x6f62736f6c65746f, 0x6f63636173696f6e65, 0x6f636368696f, 0x6f63636964656e7465, 0x6f63636f7272657265, 0x6f6363756c74617265,
  0x6f637261, 0x6f63756c61746f, 0x6f646965726e6f, 0x6f646f72617265, 0x6f666665727461, 0x6f666672697265, 0x6f666675736361746f, 0x6f67676574746f,
  0x6f676769, 0x6f676e756e6f, 0x6f6c616e64657365, 0x6f6c666174746f, 0x6f6c6961746f, 0x6f6c697661, 0x6f6c6f6772616d6d61, 0x6f6c747265]
private def it9 : List Nat := [
  0x6f6d616767696f, 0x6f6d62656c69636f, 0x6f6d627261, 0x6f6d656761, 0x6f6d697373696f6e65, 0x6f6e646f736f, 0x6f6e657265, 0x6f6e696365,
  0x6f6e6e69766f726f, 0x6f6e6f7265766f6c65, 0x6f6e7461, 0x6f70657261746f, 0x6f70696e696f6e65, 0x6f70706f73746f, 0x6f7261636f6c6f, 0x6f7261666f,
  0x6f7264696e65, 0x6f7265636368696e6f, 0x6f726566696365, 0x6f7266616e6f, 0x6f7267616e69636f, 0x6f726967696e65, 0x6f72697a7a6f6e7465, 0x6f726d61,
  0x6f726d656767696f, 0x6f726e617469766f, 0x6f726f6c6f67696f, 0x6f7272656e646f, 0x6f72726962696c65, 0x6f7274656e736961, 0x6f7274696361, 0x6f727a617461,
  0x6f727a6f, 0x6f73617265, 0x6f73637572617265, 0x6f736d6f7369, 0x6f73706564616c65, 0x6f7370697465, 0x6f737361, 0x6f73736964617265,
  0x6f737461636f6c6f, 0x6f737465, 0x6f74697465, 0x6f747265, 0x6f747461676f6e6f, 0x6f7474696d6f, 0x6f74746f627265, 0x6f76616c65,
  0x6f76657374, 0x6f76696e6f, 0x6f76697061726f, 0x6f766f6369746f, 0x6f76756e717565, 0x6f767669617265, 0x6f7a696f, 0x70616363686574746f,
  0x70616365, 0x706163696669636f, 0x706164656c6c61, 0x706164726f6e65, 0x7061657365, 0x70616761, 0x706167696e61, 0x70616c617a7a696e61,
  0x70616c6573617265, 0x70616c6c69646f, 0x70616c6f, 0x70616c756465, 0x70616e646f726f, 0x70616e6e656c6c6f, 0x70616f6c6f, 0x70616f6e617a7a6f,
  0x70617072696361, 0x70617261626f6c61, 0x70617263656c6c61, 0x706172657265, 0x706172676f6c6f, 0x70617269, 0x7061726c61746f, 0x7061726f6c61,
  0x70617274697265, 0x70617276656e7a61, 0x7061727a69616c65, 0x7061737369766f, 0x7061737469636361, 0x70617461636361, 0x7061746f6c6f676961, 0x70617474756d65,
  0x7061766f6e65, 0x7065636361746f, 0x706564616c617265, 0x7065646f6e616c65, 0x70656767696f, 0x70656c6f736f, 0x70656e617265, 0x70656e64696365,
  0x70656e69736f6c61, 0x70656e6e75746f, 0x70656e6f6d627261, 0x70656e73617265, 0x70656e746f6c61, 0x70657065, 0x706570697461, 0x70657262656e65,
  0x706572636f72736f, 0x706572646f6e61746f, 0x706572666f72617265, 0x70657267616d656e61, 0x706572696f646f, 0x7065726d6573736f, 0x7065726e6f, 0x706572706c6573736f,
  0x706572737561736f, 0x706572747567696f, 0x7065727661736f, 0x70657361746f7265, 0x70657369737461, 0x7065736f, 0x70657374696665726f, 0x706574616c6f,
  0x70657474696e65, 0x706574756c616e7465, 0x70657a7a6f, 0x70696163657265, 0x7069616e7461, 0x7069617474696e6f, 0x70696363696e6f, 0x7069636f7a7a61]
private def it10 : List Nat := [
  0x7069656761, 0x706965747261, 0x7069666665726f, 0x70696769616d61, 0x7069676f6c696f, 0x706967726f, 0x70696c61, 0x70696c696665726f,
  0x70696c6c6f6c61, 0x70696c6f7461, 0x70696d70616e7465, 0x70696e657461, 0x70696e6e61, 0x70696e6f6c6f, 0x70696f67676961, 0x70696f6d626f,
  0x706972616d696465, 0x706972657469636f, 0x706972697465, 0x7069726f6c697369, 0x7069746f6e65, 0x70697a7a69636f, 0x706c616365626f, 0x706c616e617265,
  0x706c61736d61, 0x706c6174616e6f, 0x706c656e6172696f, 0x706f6368657a7a61, 0x706f6465726f736f, 0x706f6469736d6f, 0x706f65736961, 0x706f676769617265,
  0x706f6c656e7461, 0x706f6c69676f6e6f, 0x706f6c6c696365, 0x706f6c6d6f6e697465, 0x706f6c7065747461, 0x706f6c736f, 0x706f6c74726f6e61, 0x706f6c76657265,
  0x706f6d696365, 0x706f6d6f646f726f, 0x706f6e7465, 0x706f706f6c6f736f, 0x706f726669646f, 0x706f726f736f, 0x706f72706f7261, 0x706f727265,
  0x706f7274617461, 0x706f7361, 0x706f73697469766f, 0x706f73736573736f, 0x706f7374756c61746f, 0x706f74617373696f, 0x706f74657265, 0x7072616e7a6f,
  0x707261737369, 0x70726174696361, 0x707265636c75736f, 0x70726564696361, 0x707265666973736f, 0x707265676961746f, 0x7072656c6965766f, 0x7072656d657265,
  0x7072656e6f74617265, 0x70726570617261746f, 0x70726573656e7a61, 0x707265746573746f, 0x70726576616c736f, 0x7072696d61, 0x7072696e63697065, 0x7072697661746f,
  0x70726f626c656d61, 0x70726f63757261, 0x70726f6475727265, 0x70726f66756d6f, 0x70726f676574746f, 0x70726f6c756e6761, 0x70726f6d65737361, 0x70726f6e6f6d65,
  0x70726f706f737461, 0x70726f726f6761, 0x70726f7465736f, 0x70726f7661, 0x70727564656e7465, 0x707275676e61, 0x7072757269746f, 0x707369636865,
  0x707562626c69636f, 0x707564696361, 0x707567696c61746f, 0x7075676e6f, 0x70756c6365, 0x70756c69746f, 0x70756c73616e7465, 0x70756e74617265,
  0x707570617a7a6f, 0x707570696c6c61, 0x7075726f, 0x71756164726f, 0x7175616c636f7361, 0x7175617369, 0x71756572656c61, 0x71756f7461,
  0x726163636f6c746f, 0x726164646f7070696f, 0x7261646963616c65, 0x726164756e61746f, 0x72616666696361, 0x726167617a7a6f, 0x726167696f6e65, 0x7261676e6f,
  0x72616d6172726f, 0x72616d696e676f, 0x72616d6f, 0x72616e646167696f, 0x72616e746f6c617265, 0x72617061746f, 0x726170696e61, 0x726170707265736f,
  0x7261736174757261, 0x72617363686961746f, 0x726173656e7465, 0x7261737365676e61, 0x7261737472656c6c6f, 0x72617461, 0x72617676656475746f, 0x7265616c65]
private def it11 : List Nat := [
  0x7265636570697265, 0x726563696e746f, 0x7265636c757461, 0x7265636f6e6469746f, 0x726563757065726f, 0x7265646469746f, 0x726564696d657265, 0x726567616c61746f,
  0x726567697374726f, 0x7265676f6c61, 0x726567726573736f, 0x72656c617a696f6e65, 0x72656d617265, 0x72656d6f746f, 0x72656e6e61, 0x7265706c696361,
  0x72657072696d657265, 0x7265707574617265, 0x72657361, 0x7265736964656e7465, 0x726573706f6e736f, 0x726573746175726f, 0x72657465, 0x726574696e61,
  0x7265746f72696361, 0x726574746966696361, 0x7265766f6361746f, 0x7269617373756e746f, 0x7269626164697265, 0x726962656c6c65, 0x72696272657a7a6f, 0x7269636172696361,
  0x726963636f, 0x7269636576657265, 0x72696369636c61746f, 0x7269636f72646f, 0x72696372656475746f, 0x72696469636f6c6f, 0x72696475727265, 0x7269666173617265,
  0x7269666c6573736f, 0x7269666f726d61, 0x7269667567696f, 0x726967617265, 0x72696765747461746f, 0x72696768656c6c6f, 0x72696c61737361746f, 0x72696c657661746f,
  0x72696d616e657265, 0x72696d62616c7a6f, 0x72696d6564696f, 0x72696d6f726368696f, 0x72696e617363697461, 0x72696e6361726f, 0x72696e666f727a6f, 0x72696e6e6f766f,
  0x72696e6f6d61746f, 0x72696e73617669746f, 0x72696e746f63636f, 0x72696e756e636961, 0x72696e76656e697265, 0x726970617261746f, 0x726970657475746f, 0x72697069656e6f,
  0x7269706f7274617265, 0x72697072657361, 0x726970756c697265, 0x726973617461, 0x7269736368696f, 0x72697365727661, 0x7269736962696c65, 0x7269736f,
  0x726973706574746f, 0x726973746f726f, 0x726973756c7461746f, 0x726973766f6c746f, 0x7269746172646f, 0x72697465676e6f, 0x7269746d69636f, 0x726974726f766f,
  0x7269756e696f6e65, 0x72697661, 0x7269766572736f, 0x726976696e63697461, 0x7269766f6c746f, 0x72697a6f6d61, 0x726f6261, 0x726f626f7469636f,
  0x726f627573746f, 0x726f63636961, 0x726f636f, 0x726f64616767696f, 0x726f64657265, 0x726f6469746f7265, 0x726f6769746f, 0x726f6c6c696f,
  0x726f6d616e7469636f, 0x726f6d70657265, 0x726f6e7a696f, 0x726f736f6c617265, 0x726f73706f, 0x726f74616e7465, 0x726f746f6e646f, 0x726f74756c61,
  0x726f76657363696f, 0x727562697a7a6f, 0x72756272696361, 0x72756761, 0x72756c6c696e6f, 0x72756d696e65, 0x72756d6f726f736f, 0x72756f6c6f,
  0x72757065, 0x72757373617265, 0x7275737469636f, 0x73616261746f, 0x7361626269617265, 0x7361626f7461746f, 0x7361676f6d61, 0x73616c6173736f,
  0x73616c646174757261, 0x73616c67656d6d61, 0x73616c6976617265, 0x73616c6d6f6e65, 0x73616c6f6e65, 0x73616c74617265, 0x73616c75746f, 0x73616c766f]
private def it12 : List Nat := [
  0x736170657265, 0x73617069646f, 0x7361706f7269746f, 0x7361726163656e6f, 0x7361726361736d6f, 0x736172746f, 0x736173736f736f, 0x736174656c6c697465,
  0x736174697261, 0x7361746f6c6c6f, 0x73617475726e6f, 0x736176616e61, 0x736176696f, 0x73617a6961746f, 0x7362616469676c696f, 0x7362616c7a6f,
  0x7362616e6361746f, 0x736261727261, 0x7362617474657265, 0x73626176617265, 0x7362656e64617265, 0x736269726369617265, 0x73626c6f636361746f, 0x73626f63636961746f,
  0x736272696e617265, 0x7362727566666f6e65, 0x7362756666617265, 0x73636162726f736f, 0x73636164656e7a61, 0x7363616c61, 0x7363616d6269617265, 0x7363616e64616c6f,
  0x736361706f6c61, 0x73636172736f, 0x73636174656e617265, 0x7363617661746f, 0x7363656c746f, 0x7363656e69636f, 0x7363657474726f, 0x736368656461,
  0x73636869656e61, 0x73636961727061, 0x736369656e7a61, 0x7363696e64657265, 0x73636970706f, 0x736369726f70706f, 0x736369766f6c6f, 0x73636c6572617265,
  0x73636f64656c6c61, 0x73636f6c7069746f, 0x73636f6d706172746f, 0x73636f6e666f72746f, 0x73636f7072697265, 0x73636f727461, 0x73636f73736f6e65, 0x73636f7a7a657365,
  0x736372696261, 0x7363726f6c6c617265, 0x7363727574696e696f, 0x7363756465726961, 0x7363756c746f7265, 0x7363756f6c61, 0x736375726f, 0x73637573617265,
  0x736465626974617265, 0x73646f67616e617265, 0x736563636174757261, 0x7365636f6e646f, 0x736564616e6f, 0x73656767696f6c61, 0x7365676e616c61746f, 0x73656772656761746f,
  0x7365677569746f, 0x73656c636961746f, 0x73656c65747469766f, 0x73656c6c61, 0x73656c76616767696f, 0x73656d61666f726f, 0x73656d6272617265, 0x73656d65,
  0x73656d696e61746f, 0x73656d707265, 0x73656e736f, 0x73656e74697265, 0x7365706f6c746f, 0x73657175656e7a61, 0x736572617461, 0x7365726261746f,
  0x736572656e6f, 0x736572696f, 0x73657270656e7465, 0x7365727261676c696f, 0x73657276697265, 0x73657374696e61, 0x7365746f6c61, 0x73657474696d616e61,
  0x73666163656c6f, 0x7366616c64617265, 0x7366616d61746f, 0x736661727a6f736f, 0x73666174696361746f, 0x7366657261, 0x7366696461, 0x7366696c61746f,
  0x7366696e6765, 0x73666f6361746f, 0x73666f646572617265, 0x73666f676f, 0x73666f6c74697265, 0x73666f727a61746f, 0x7366726174746f, 0x73667275747461746f,
  0x736675676769746f, 0x7366756d617265, 0x736675736f, 0x73676162656c6c6f, 0x736761726261746f, 0x73676f6e6669617265, 0x73676f7262696f, 0x73677261737361746f,
  0x7367756172646f, 0x736962696c6f, 0x736963636f6d65, 0x736965727261, 0x7369676c61, 0x7369676e6f7265, 0x73696c656e7a696f, 0x73696c6c616261]
private def it13 : List Nat := [
  0x73696d626f6c6f, 0x73696d70617469636f, 0x73696d756c61746f, 0x73696e666f6e6961, 0x73696e676f6c6f, 0x73696e697374726f, 0x73696e6f, 0x73696e74657369,
  0x73696e75736f696465, 0x7369706172696f, 0x7369736d61, 0x736973746f6c65, 0x7369747561746f, 0x736c69747461, 0x736c6f676174757261, 0x736c6f76656e6f,
  0x736d61727269746f, 0x736d656d6f7261746f, 0x736d656e7469746f, 0x736d6572616c646f, 0x736d696c7a6f, 0x736d6f6e74617265, 0x736d6f747461746f, 0x736d75737361746f,
  0x736e656c6c697265, 0x736e65727661746f, 0x736e6f646f, 0x736f6262616c7a6f, 0x736f6272696f, 0x736f63636f72736f, 0x736f6369616c65, 0x736f64616c65,
  0x736f66666974746f, 0x736f676e6f, 0x736f6c6461746f, 0x736f6c656e6e65, 0x736f6c69646f, 0x736f6c6c617a7a6f, 0x736f6c6f, 0x736f6c7562696c65,
  0x736f6c76656e7465, 0x736f6d617469636f, 0x736f6d6d61, 0x736f6e6461, 0x736f6e6574746f, 0x736f6e6e696665726f, 0x736f70697265, 0x736f707065736f,
  0x736f707261, 0x736f7267657265, 0x736f72706173736f, 0x736f727269736f, 0x736f72736f, 0x736f7274656767696f, 0x736f72766f6c61746f, 0x736f737069726f,
  0x736f737461, 0x736f7474696c65, 0x7370616461, 0x7370616c6c61, 0x7370617267657265, 0x737061746f6c61, 0x73706176656e746f, 0x7370617a7a6f6c61,
  0x737065636965, 0x73706564697265, 0x737065676e657265, 0x7370656c6174757261, 0x73706572616e7a61, 0x73706573736f7265, 0x737065747472616c65, 0x7370657a7a61746f,
  0x73706961, 0x737069676f6c6f736f, 0x7370696c6c61746f, 0x7370696e6f736f, 0x73706972616c65, 0x73706c656e6469646f, 0x73706f727469766f, 0x73706f736f,
  0x737072616e6761, 0x7370726563617265, 0x7370726f6e61746f, 0x737072757a7a6f, 0x7370756e74696e6f, 0x737175696c6c6f, 0x737261646963617265, 0x73726f746f6c61746f,
  0x73746162696c65, 0x73746163636f, 0x737461666661, 0x737461676e617265, 0x7374616d7061746f, 0x7374616e74696f, 0x737461726e75746f, 0x73746173657261,
  0x7374617475746f, 0x7374656c6f, 0x737465707061, 0x737465727a6f, 0x7374696c6574746f, 0x7374696d61, 0x737469727065, 0x73746976616c65,
  0x7374697a7a6f736f, 0x73746f6e61746f, 0x73746f7269636f, 0x7374726170706f, 0x737472656761746f, 0x7374726964756c6f, 0x7374726f7a7a617265, 0x7374727574746f,
  0x7374756363617265, 0x737475666f, 0x73747570656e646f, 0x737562656e74726f, 0x737563636f736f, 0x7375646f7265, 0x73756767657269746f, 0x7375676f,
  0x73756c74616e6f, 0x73756f6e617265, 0x7375706572626f, 0x737570706f72746f, 0x73757267656c61746f, 0x737572726f6761746f, 0x737573737572726f, 0x737574757261]
private def it14 : List Nat := [
  0x73766167617265, 0x73766564657365, 0x737665676c696f, 0x7376656c617265, 0x7376656e75746f, 0x7376657a6961, 0x7376696c7570706f, 0x737669737461,
  0x7376697a7a657261, 0x73766f6c7461, 0x7376756f74617265, 0x7461626163636f, 0x746162756c61746f, 0x7461636369617265, 0x746163697475726e6f, 0x74616c65,
  0x74616c69736d616e6f, 0x74616d706f6e65, 0x74616e6e696e6f, 0x74617261, 0x7461726469766f, 0x7461726761746f, 0x74617269666661, 0x74617270617265,
  0x746172746172756761, 0x746173746f, 0x7461747469636f, 0x74617665726e61, 0x7461766f6c617461, 0x74617a7a61, 0x74656361, 0x7465636e69636f,
  0x74656c65666f6e6f, 0x74656d65726172696f, 0x74656d706f, 0x74656d75746f, 0x74656e646f6e65, 0x74656e65726f, 0x74656e73696f6e65, 0x74656e7461636f6c6f,
  0x74656f72656d61, 0x7465726d65, 0x74657272617a7a6f, 0x7465727a6574746f, 0x74657369, 0x74657373657261746f, 0x7465737461746f, 0x746574726f,
  0x746574746f6961, 0x746966617265, 0x746967656c6c61, 0x74696d62726f, 0x74696e746f, 0x74697069636f, 0x7469706f677261666f, 0x746972616767696f,
  0x7469726f, 0x746974616e696f, 0x7469746f6c6f, 0x7469747562616e7465, 0x74697a696f, 0x74697a7a6f6e65, 0x746f6363617265, 0x746f6c6c6572617265,
  0x746f6c746f, 0x746f6d626f6c61, 0x746f6d6f, 0x746f6e666f, 0x746f6e73696c6c61, 0x746f70617a696f, 0x746f706f6c6f676961, 0x746f707061,
  0x746f726261, 0x746f726e617265, 0x746f72726f6e65, 0x746f72746f7261, 0x746f7363616e6f, 0x746f7373697265, 0x746f73746174757261, 0x746f74616e6f,
  0x747261626f63636f, 0x74726163686561, 0x74726166696c61, 0x7472616765646961, 0x7472616c63696f, 0x7472616d6f6e746f, 0x7472616e7369746f, 0x74726170616e6f,
  0x747261727265, 0x747261736c6f636f, 0x747261747461746f, 0x7472617665, 0x74726563636961, 0x7472656d6f6c696f, 0x74726573706f6c6f, 0x7472696275746f,
  0x747269636865636f, 0x747269666f676c696f, 0x7472696c6c6f, 0x7472696e636561, 0x7472696f, 0x7472697374657a7a61, 0x74726974757261746f, 0x74726976656c6c61,
  0x74726f6d6261, 0x74726f6e6f, 0x74726f70706f, 0x74726f74746f6c61, 0x74726f76617265, 0x747275636361746f, 0x7475626174757261, 0x7475666661746f,
  0x74756c6970616e6f, 0x74756d756c746f, 0x74756e69736961, 0x74757262617265, 0x7475726368696e6f, 0x74757461, 0x747574656c61, 0x7562696361746f,
  0x756363656c6c6f, 0x75636369736f7265, 0x7564697265, 0x7564697469766f, 0x75666661, 0x7566666963696f, 0x756775616c65, 0x756c69737365]
private def it15 : List Nat := [
  0x756c74696d61746f, 0x756d616e6f, 0x756d696c65, 0x756d6f7269736d6f, 0x756e63696e6574746f, 0x756e67657265, 0x756e67686572657365, 0x756e69636f726e6f,
  0x756e6966696361746f, 0x756e69736f6e6f, 0x756e69746172696f, 0x756e7465, 0x756f766f, 0x7570757061, 0x75726167616e6f, 0x757267656e7a61,
  0x75726c6f, 0x7573616e7a61, 0x757361746f, 0x75736369746f, 0x757369676e6f6c6f, 0x7573757261696f, 0x7574656e73696c65, 0x7574696c697a7a6f,
  0x75746f706961, 0x766163616e7465, 0x76616363696e61746f, 0x76616761626f6e646f, 0x7661676c6961746f, 0x76616c616e6761, 0x76616c676f, 0x76616c69636f,
  0x76616c6c65747461, 0x76616c6f726f736f, 0x76616c7574617265, 0x76616c766f6c61, 0x76616d70617461, 0x76616e67617265, 0x76616e69746f736f, 0x76616e6f,
  0x76616e74616767696f, 0x76616e76657261, 0x7661706f7265, 0x766172616e6f, 0x7661726361746f, 0x76617269616e7465, 0x7661736361, 0x76656465747461,
  0x7665646f7661, 0x76656475746f, 0x7665676574616c65, 0x766569636f6c6f, 0x76656c63726f, 0x76656c696e61, 0x76656c6c75746f, 0x76656c6f6365,
  0x76656e61746f, 0x76656e64656d6d6961, 0x76656e746f, 0x766572616365, 0x76657262616c65, 0x766572676f676e61, 0x7665726966696361, 0x7665726f,
  0x76657272756361, 0x766572746963616c65, 0x76657363696361, 0x76657373696c6c6f, 0x76657374616c65, 0x7665746572616e6f, 0x76657472696e61, 0x7665747573746f,
  0x7669616e64616e7465, 0x76696272616e7465, 0x766963656e6461, 0x76696368696e676f, 0x766963696e616e7a61, 0x766964696d617265, 0x766967696c6961, 0x7669676e65746f,
  0x7669676f7265, 0x76696c65, 0x76696c6c616e6f, 0x76696d696e69, 0x76696e6369746f7265, 0x76696f6c61, 0x766970657261, 0x766972676f6c61,
  0x7669726f6c6f676f, 0x766972756c656e746f, 0x766973636f736f, 0x766973696f6e65, 0x766973706f, 0x7669737375746f, 0x766973757261, 0x76697461,
  0x766974656c6c6f, 0x76697474696d61, 0x766976616e6461, 0x76697669646f, 0x76697a69617265, 0x766f6365, 0x766f6761, 0x766f6c6174696c65,
  0x766f6c657265, 0x766f6c7065, 0x766f726167696e65, 0x76756c63616e6f, 0x7a616d706f676e61, 0x7a616e6e61, 0x7a61707061746f, 0x7a617474657261,
  0x7a61766f727261, 0x7a656669726f, 0x7a656c616e7465, 0x7a656c6f, 0x7a656e7a65726f, 0x7a657262696e6f, 0x7a69626574746f, 0x7a696e636f,
  0x7a6972636f6e65, 0x7a6974746f, 0x7a6f6c6c61, 0x7a6f7469636f, 0x7a7563636865726f, 0x7a75666f6c6f, 0x7a756c75, 0x7a75707061]

/-- Words 2048, src/words/catalogs/mnemonic.cpp:4139-6192. -/
def it : List Nat :=
  (it0 ++ (it1 ++ (it2 ++ (it3 ++ (it4 ++ (it5 ++ (it6 ++ (it7 ++ (it8 ++ (it9 ++ (it10 ++ (it11 ++ (it12 ++ (it13 ++ (it14 ++ (it15))))))))))))))))

end Verif.Catalog
