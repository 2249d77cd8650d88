/-!
# The `pt` word list of src/words/catalogs/electrum_v1.cpp:1661-3292 (generated by tools/gen_words.py)

Each word is the number its UTF-8 bytes spell, most significant byte first.
-/
namespace Verif.Catalog

private def v1Pt0 : List Nat := [
  0x616261756c6172, 0x6162646f6d696e616c, 0x616265746f, 0x6162697373696e696f, 0x61626a65746f, 0x61626c7563616f, 0x61626e65676172, 0x61626f746f6172,
  0x6162727574616c686172, 0x6162737572646f, 0x616275747265, 0x6163617574656c6172, 0x6163636573736f72696f73, 0x616365746f6e61, 0x6163686f636f6c617461646f, 0x61636972726172,
  0x61636e65, 0x61636f766172646172, 0x6163726f737469636f, 0x616374696e6f6d6963657465, 0x616375737469636f, 0x61646170746176656c, 0x6164657573, 0x61646976696e686f,
  0x61646a756e746f, 0x61646d6f6573746172, 0x61646e6f6d696e616c, 0x61646f7469766f, 0x6164717569726972, 0x61647269617469636f, 0x6164736f7263616f, 0x616475746f7261,
  0x6164766f676172, 0x6165726f73736f6c, 0x6166617a65726573, 0x61666574756f736f, 0x616669786f, 0x61666c756972, 0x61666f7274756e6172, 0x6166726f75786172,
  0x6166746f7361, 0x6166756e696c6172, 0x6167656e746573, 0x616769746f, 0x61676c7574696e6172, 0x616961746f6c61, 0x61696d6f7265, 0x61696e6f,
  0x6169706f, 0x6169726f736f, 0x616a6569746172, 0x616a6f656c686172, 0x616a7564616e7465, 0x616a75737465, 0x616c617a616f, 0x616c62756d696e61,
  0x616c63756e6861, 0x616c6567726961, 0x616c6578616e647265, 0x616c666f7272696172, 0x616c67756e73, 0x616c6875726573, 0x616c6976696f, 0x616c6d6f786172696665,
  0x616c6f74726f7069636f, 0x616c7069737465, 0x616c7175696d69737461, 0x616c73616369616e6f, 0x616c74757261, 0x616c757669616f, 0x616c76757261, 0x616d617a6f6e69636f,
  0x616d62756c61746f72696f, 0x616d65746f6469636f, 0x616d697a61646573, 0x616d6e696f7469636f, 0x616d6f766976656c, 0x616d7572616461, 0x616e61746f6d69636f, 0x616e636f726172,
  0x616e65786f, 0x616e666f7261, 0x616e69766572736172696f, 0x616e6a6f, 0x616e6f746172, 0x616e73696f736f, 0x616e747572696f, 0x616e7576696172,
  0x616e766572736f, 0x616e7a6f6c, 0x616f6e6465, 0x6170617a6967756172, 0x617069746f, 0x61706c69636176656c, 0x61706f74656f7469636f, 0x617072696d6f726172,
  0x617072756d6f, 0x6170746f, 0x617075726f73, 0x6171756f736f, 0x61726175746f, 0x6172627573746f, 0x617264756f, 0x617265737461,
  0x6172666172, 0x61726775746f, 0x617269746d657469636f, 0x61726c657175696d, 0x61726d6973746963696f, 0x61726f6d6174697a6172, 0x6172706f6172, 0x6172717569766f,
  0x617272756d6172, 0x617273656e696f, 0x617274757269616e6f, 0x61727561717565, 0x6172766f726573, 0x6173626573746f, 0x6173636f726269636f, 0x6173706972696e61,
  0x6173717565726f736f, 0x6173737573746172, 0x61737475746f, 0x6174617a616e6172, 0x617469766f, 0x61746c657469736d6f, 0x61746d6f7366657269636f, 0x61746f726d656e746172]
private def v1Pt1 : List Nat := [
  0x6174726f7a, 0x61747572646972, 0x6175646976656c, 0x61756665726972, 0x6175677573746f, 0x61756c61, 0x61756d656e746f, 0x6175726f7261,
  0x617574756172, 0x617661746172, 0x617665786172, 0x6176697a696e686172, 0x61766f6c756d6172, 0x6176756c736f, 0x6178696f6d617469636f, 0x617a65726261696a616e6f,
  0x617a696d757465, 0x617a6f746f, 0x617a756c656a6f, 0x626163746572696f6c6f6769737461, 0x626164756c61717565, 0x6261666f72616461, 0x626169786f7465, 0x62616a756c6172,
  0x62616c7a61717569616e61, 0x62616d62757a616c, 0x62616e7a6f, 0x62616f6261, 0x62617175657461, 0x626172756c686f, 0x626173746f6e657465, 0x626174757461,
  0x62617578697461, 0x62617661726f, 0x62617a756361, 0x6263726570757363756c6172, 0x626561746f, 0x62656475696e6f, 0x6265676f6e6961, 0x6265686176696f7269737461,
  0x6265697365626f6c, 0x62656c7a656275, 0x62656d6f6c, 0x62656e7a69646f, 0x62656f63696f, 0x626571756572, 0x626572726f, 0x626573756e746172,
  0x626574756d65, 0x626578696761, 0x62657a6572726f, 0x626961746c6f6e, 0x6269626f6361, 0x626963757370696465, 0x62696469726563696f6e616c, 0x6269656e696f,
  0x6269667572636172, 0x6269676f726e61, 0x62696a757465726961, 0x62696d6f746f72, 0x62696e6f726d616c, 0x62696f7869646f, 0x6269706f6c6172697a6163616f, 0x62697175696e69,
  0x6269727574696365, 0x62697374757269, 0x626974756361, 0x6269756e69766f636f, 0x626976616c7665, 0x62697a6172726f, 0x626c617366656d6f, 0x626c656e6f7272656961,
  0x626c696e646172, 0x626c6f717565696f, 0x626c7573616f, 0x626f617a756461, 0x626f66657465, 0x626f6a75646f, 0x626f6c736f, 0x626f6d626f72646f,
  0x626f6e7a6f, 0x626f74696e61, 0x626f71756961626572746f, 0x626f73746f6e69616e6f, 0x626f74756c69736d6f, 0x626f7572626f6e, 0x626f76696e6f, 0x626f78696d616e65,
  0x62726176757261, 0x627265766964616465, 0x627269746172, 0x62726f786172, 0x6272756e6f, 0x62727578756c65696f, 0x6275626f6e69636f, 0x6275636f6c69636f,
  0x62756461, 0x62756469737461, 0x62756569726f, 0x627566666572, 0x6275677265, 0x62756a616f, 0x62756d6572616e677565, 0x627572756e64696e6573,
  0x627573746f, 0x62757469717565, 0x62757a696f73, 0x63616174696e6761, 0x63616275717569, 0x636163756e6461, 0x636166757a6f, 0x63616a756569726f,
  0x63616d75726361, 0x63616e75646f, 0x63617175697a6569726f, 0x636172766f6569726f, 0x636173756c6f, 0x63617475616261, 0x636175746572697a6172, 0x6365626f6c696e6861,
  0x636564756c61, 0x636569666569726f, 0x63656c756c6f7365, 0x6365727a6972, 0x636573746f, 0x636574726f, 0x63657573, 0x6365766172]
private def v1Pt2 : List Nat := [
  0x63686176656e61, 0x636865726f717569, 0x6368697461, 0x63686f7669646f, 0x636875766f736f, 0x6369617469636f, 0x63696265726e657469636f, 0x636963757461,
  0x6369647265697261, 0x6369656e746973746173, 0x636966726172, 0x6369676172726f, 0x63696c696f, 0x63696d6f, 0x63696e7a656e746f, 0x63696f736f,
  0x63697072696f7461, 0x63697275726769636f, 0x636973746f, 0x6369747269636f, 0x6369756d656e746f, 0x63697669736d6f, 0x636c61766963756c61, 0x636c65726f,
  0x636c69746f726973, 0x636c7573746572, 0x636f617869616c, 0x636f62726972, 0x636f636f7461, 0x636f646f726e697a, 0x636f65786973746972, 0x636f67756d656c6f,
  0x636f69746f, 0x636f6c7573616f, 0x636f6d70616978616f, 0x636f6d7574617469766f, 0x636f6e74656e74616d656e746f, 0x636f6e76756c7369766f, 0x636f6f7264656e6174697661, 0x636f71756574656c,
  0x636f727265746f, 0x636f72766f, 0x636f737475726569726f, 0x636f746f766961, 0x636f76696c, 0x636f7a696e686569726f, 0x63726574696e6f, 0x63726973746f,
  0x637269766f, 0x63726f74616c6f, 0x6372757a6573, 0x6375626f, 0x637563756961, 0x63756569726f, 0x637569646172, 0x63756a6f,
  0x63756c747572616c, 0x63756e696c696e677561, 0x637570756c61, 0x637572766f, 0x637573746f736f, 0x63757475636172, 0x637a617269736d6f, 0x6461626c696f,
  0x6461636f7461, 0x6461646f73, 0x64616775657272656f7469706f, 0x6461697175697269, 0x64616c746f6e69736d6f, 0x64616d69737461, 0x64616e746573636f, 0x64617175696c6f,
  0x64617277696e69737461, 0x64617365696e, 0x64617469766f, 0x6465616f, 0x6465627574616e746573, 0x6465637572736f, 0x646564757a6972, 0x646566756e746f,
  0x6465677573746172, 0x64656a65746f, 0x64656c746f696465, 0x64656d6f766572, 0x64656e756e63696172, 0x646570757461646f, 0x6465717565, 0x64657276697865,
  0x64657376697274756172, 0x6465747572706172, 0x6465757465726f6e6f6d696f, 0x6465766f746f, 0x64657874726f7365, 0x64657a6f69746f, 0x6469617472696265, 0x6469636f746f6d69636f,
  0x646964617469636f, 0x6469657469737461, 0x64696675736f, 0x64696772657373616f, 0x64696c7576696f, 0x64696d696e75746f, 0x64696e686569726f, 0x64696e6f73736175726f,
  0x64696f7869646f, 0x6469706c6f6d617469636f, 0x6469717565, 0x646972696d6976656c, 0x64697374757262696f, 0x646975726e6f, 0x646976756c676172, 0x64697a6976656c,
  0x646f6172, 0x646f62726f, 0x646f63757261, 0x646f646f69, 0x646f6572, 0x646f677565, 0x646f6c6f736f, 0x646f6d6f,
  0x646f6e7a656c61, 0x646f70696e67, 0x646f7273616c, 0x646f73736965, 0x646f7465, 0x646f7574726f, 0x646f7a65, 0x64726176696469636f]
private def v1Pt3 : List Nat := [
  0x6472656e6f, 0x647269766572, 0x64726f706573, 0x647275736f, 0x6475626e696f, 0x647563746f, 0x647565746f, 0x64756c696a61,
  0x64756e64756d, 0x64756f64656e6f, 0x64757175657361, 0x6475726f75, 0x64757669646f736f, 0x64757a6961, 0x6562616e6f, 0x656272696f,
  0x656275726e656f, 0x65636861727065, 0x65636c757361, 0x65636f7373697374656d61, 0x6563746f706c61736d61, 0x6563756d656e69736d6f, 0x65637a656d61, 0x6564656e,
  0x656469746f7269616c, 0x65647265646f6d, 0x6564756c636f726172, 0x65666574756172, 0x656669676965, 0x65666c7576696f, 0x65676970746f6c6f676f, 0x6567726573736f,
  0x65677561, 0x65696e737465696e69616e6f, 0x65697261, 0x6569766172, 0x6569786f73, 0x656a65746172, 0x656c6173746f6d65726f, 0x656c646f7261646f,
  0x656c69786972, 0x656c6d6f, 0x656c6f7175656e7465, 0x656c75636964617469766f, 0x656d6172616e686172, 0x656d6275746972, 0x656d657269746f, 0x656d6661,
  0x656d69746972, 0x656d6f7469766f, 0x656d7075786f, 0x656d756c73616f, 0x656e616d6f726172, 0x656e637572766172, 0x656e6475726f, 0x656e65766f6172,
  0x656e6675726e6172, 0x656e677569636f, 0x656e686f, 0x656e69676d69737461, 0x656e6c75746172, 0x656e6f726d6964616465, 0x656e707265656e64696d656e746f, 0x656e7175616e746f,
  0x656e7269717565636572, 0x656e7275676172, 0x656e7475736961737469636f, 0x656e756e63696172, 0x656e766f6c76696d656e746f, 0x656e7875746f, 0x656e7a696d617469636f, 0x656f6c69636f,
  0x6570697465746f, 0x65706f7869, 0x6570757261, 0x65717569766f636f, 0x65726172696f, 0x657262696f, 0x657265746f, 0x6572677569646f,
  0x657269736970656c61, 0x65726d6f, 0x65726f74697a6172, 0x6572726f73, 0x6572757063616f, 0x657276696c6861, 0x657362757261636172, 0x65736375746172,
  0x657366757a69616e7465, 0x65736775696f, 0x65736c6f76656e6f, 0x65736d7572726172, 0x65736f74657269736d6f, 0x6573706572616e6361, 0x657370697269746f, 0x6573707572696f,
  0x657373656e6369616c6d656e7465, 0x65737475727269636172, 0x6573766f61636172, 0x65746172696f, 0x657465726e6f, 0x657469717565746172, 0x65746e6f6c6f676f, 0x65746f73,
  0x6574727573636f, 0x6575636c696469616e6f, 0x6575666f7269636f, 0x657567656e69636f, 0x65756e75636f, 0x6575726f70696f, 0x65757374617175696f, 0x657574616e61736961,
  0x6576617369766f, 0x6576656e7475616c6964616465, 0x657669746176656c, 0x65766f6c756972, 0x6578617573746f72, 0x657863757273696f6e69737461, 0x657865726369746f, 0x6578666f6c6961646f,
  0x657869746f, 0x65786f7469636f, 0x6578707572676f, 0x65787375646172, 0x6578747275736f7261, 0x6578756d6172, 0x666162756c6f736f, 0x666163756c74617469766f]
private def v1Pt4 : List Nat := [
  0x6661646f, 0x666167756c6861, 0x666169786173, 0x66616a75746f, 0x66616c746f736f, 0x66616d6f736f, 0x66616e7a696e65, 0x666170657370,
  0x666171756972, 0x66617274757261, 0x66617374696f, 0x666174757269737461, 0x66617573746f, 0x6661766f7269746f, 0x666178696e65697261, 0x66617a6572,
  0x6665616c64616465, 0x66656272696c, 0x666563756e646f, 0x6665646f72656e746f, 0x6665657269636f, 0x6665697865, 0x66656c69636964616465, 0x66656c697065,
  0x66656c74726f, 0x66656d7572, 0x66656e6f7469706f, 0x66657276757261, 0x6665737469766f, 0x6665746f, 0x666575646f, 0x66657665726569726f,
  0x66657a696e6861, 0x66696173636f, 0x6669627261, 0x666963746963696f, 0x6669647563696172696f, 0x6669657370, 0x66696661, 0x6669677572696e6f,
  0x66696a69616e6f, 0x66696c74726f, 0x66696e757261, 0x66696f726465, 0x666971756569, 0x666972756c61, 0x6669737375726172, 0x6669746f74656361,
  0x666976656c61, 0x6669786f, 0x666c6176696f, 0x666c65786f72, 0x666c69627573746569726f, 0x666c6f74696c6861, 0x666c75786f6772616d61, 0x666f626f73,
  0x666f636f, 0x666f66757261, 0x666f677569737461, 0x666f6965, 0x666f6c6963756c6f, 0x666f6d696e6861, 0x666f6e7465, 0x666f72756d,
  0x666f73736f, 0x666f746f7373696e74657365, 0x666f7874726f7465, 0x6672617564756c656e746f, 0x667265766f, 0x667269766f6c6f, 0x66726f75786f, 0x667275746f7365,
  0x66756261, 0x667563736961, 0x667567697469766f, 0x6675696e6861, 0x66756a616f, 0x66756c7573747265636f, 0x66756d6f, 0x66756e696c6569726f,
  0x667572756e63756c6f, 0x6675737469676172, 0x66757475726f6c6f676f, 0x66757869636f, 0x66757a7565, 0x6761627269656c, 0x6761646f, 0x6761656c69636f,
  0x6761666965697261, 0x67616775656a6f, 0x676169766f7461, 0x67616a6f, 0x67616c76616e6f706c61737469636f, 0x67616d6f, 0x67616e736f, 0x6761727275636861,
  0x67617374726f6e6f6d6f, 0x676174756e6f, 0x676175737369616e6f, 0x67617669616f, 0x676178657461, 0x67617a65746569726f, 0x67656172, 0x676569736572,
  0x67656d696e69616e6f, 0x67656e65726f736f, 0x67656e75696e6f, 0x67656f7373696e636c696e616c, 0x676572756e64696f, 0x6765737475616c, 0x676574756c69737461, 0x67696269,
  0x6769676f6c6f, 0x67696c657465, 0x67696e73656e67, 0x6769726f73636f70696f, 0x676c617563696f, 0x676c616369616c, 0x676c656261, 0x676c69666f,
  0x676c6f7465, 0x676c75746f6e6961, 0x676e6f737469636f, 0x676f656c61, 0x676f676f, 0x676f6974616361, 0x676f6c7069737461, 0x676f6d6f]
private def v1Pt5 : List Nat := [
  0x676f6e7a6f, 0x676f72726f, 0x676f73746f75, 0x676f746963756c61, 0x676f75726d6574, 0x676f7665726e6f, 0x676f7a6f, 0x677261786f,
  0x6772657669737461, 0x677269746f, 0x67726f746573636f, 0x6772757461, 0x67756178696e696d, 0x67756465, 0x677565746f, 0x6775697a6f,
  0x67756c6f736f, 0x67756d65, 0x67757275, 0x67757374617469766f, 0x6775737461766f, 0x6775747572616c, 0x68616269747565, 0x6861697469616e6f,
  0x68616c7465726f66696c69737461, 0x68616d62757267756572, 0x68616e73656e69617365, 0x68617070656e696e67, 0x6861727069737461, 0x68617374656172, 0x68617665726573, 0x686562726575,
  0x686563746f6d6574726f, 0x6865646f6e69737461, 0x686567697261, 0x68656c656e61, 0x68656c6d696e746f, 0x68656d6f72726f69646173, 0x68656e7269717565, 0x68657074617373696c61626f,
  0x686572747a69616e6f, 0x68657369746172, 0x68657465726f7373657875616c, 0x6865757269737469636f, 0x68657861676f6e6f, 0x686961746f, 0x6869627269646f, 0x686964726f7374617469636f,
  0x686965726f676c69666f, 0x686966656e697a6172, 0x68696769656e697a6172, 0x68696c6172696f, 0x68696d656e, 0x68696e6f, 0x686970706965, 0x6869727375746f,
  0x686973746f72696f677261666961, 0x6869746c657269737461, 0x686f646f6d6574726f, 0x686f6a65, 0x686f6c6f6772616d61, 0x686f6d7573, 0x686f6e726f736f, 0x686f71756569,
  0x686f72746f, 0x686f7374696c697a6172, 0x686f74656e746f7465, 0x68756775656e6f7465, 0x68756d696c6465, 0x68756e6f, 0x6875727261, 0x68757475,
  0x69616961, 0x69616c6f72697861, 0x69616d6269636f, 0x69616e7361, 0x6961717565, 0x69617261, 0x69617469737461, 0x6962657269636f,
  0x69626973, 0x69636172, 0x69636562657267, 0x69636f7361676f6e6f, 0x6964616465, 0x6964656f6c6f676f, 0x6964696f74696365, 0x69646f736f,
  0x69656d656e697461, 0x69656e65, 0x69676172617065, 0x69676c75, 0x69676e6f726172, 0x696772656a61, 0x69677561726961, 0x69696469636865,
  0x696c617469766f, 0x696c65747261646f, 0x696c6861726761, 0x696c696d697461646f, 0x696c6f6769736d6f, 0x696c75737472697373696d6f, 0x696d617475726f, 0x696d62757a6569726f,
  0x696d6572736f, 0x696d69746176656c, 0x696d6f76656c, 0x696d7075746172, 0x696d75746176656c, 0x696e617665726967756176656c, 0x696e6375746972, 0x696e64757a6972,
  0x696e6578747269636176656c, 0x696e667573616f, 0x696e677561, 0x696e68616d65, 0x696e6971756f, 0x696e6a7573746f, 0x696e6e696e67, 0x696e6f7869646176656c,
  0x696e7175697369746f7269616c, 0x696e73757374656e746176656c, 0x696e74756d657363696d656e746f, 0x696e7574696c697a6176656c, 0x696e76756c6e65726176656c, 0x696e7a6f6e6569726f, 0x696f646f, 0x696f6775727465]
private def v1Pt6 : List Nat := [
  0x696f696f, 0x696f6e6f7366657261, 0x696f72756261, 0x696f7461, 0x697073696c6f6e, 0x69726173636976656c, 0x69726973, 0x69726c616e646573,
  0x69726d616f73, 0x69726f71756573, 0x697272757063616f, 0x69736361, 0x6973656e746f, 0x69736c616e646573, 0x69736f746f706f, 0x697371756569726f,
  0x69737261656c697461, 0x6973736f, 0x6973746f, 0x6974657262696f, 0x6974696e65726172696f, 0x697472696f, 0x6975616e65, 0x6975676f736c61766f,
  0x6a616275746963616265697261, 0x6a61637574696e6761, 0x6a616465, 0x6a6167756e636f, 0x6a61696e69737461, 0x6a616c65636f, 0x6a616d626f, 0x6a616e746172616461,
  0x6a61706f6e6573, 0x6a617175657461, 0x6a6172726f, 0x6a61736d696d, 0x6a61746f, 0x6a61756c61, 0x6a6176656c, 0x6a617a7a,
  0x6a65677565, 0x6a6569746f736f, 0x6a656a756d, 0x6a656e697061706f, 0x6a656f7661, 0x6a6571756974696261, 0x6a6572736569, 0x6a65737573,
  0x6a65746f6d, 0x6a69626f6961, 0x6a69686164, 0x6a696c6f, 0x6a696e676c65, 0x6a697065, 0x6a6f636f736f, 0x6a6f656c686f,
  0x6a6f6775657465, 0x6a6f696f, 0x6a6f6a6f6261, 0x6a6f72726f, 0x6a6f7461, 0x6a6f756c65, 0x6a6f7669616e6f, 0x6a7562696c6f736f,
  0x6a75646f6361, 0x6a7567756c6172, 0x6a75697a6f, 0x6a756a756261, 0x6a756c69616e6f, 0x6a756d656e746f, 0x6a756e746f, 0x6a7572757275,
  0x6a7573746f, 0x6a757461, 0x6a7576656e74756465, 0x6c616275746172, 0x6c6167756e61, 0x6c6169636f, 0x6c616a6f7461, 0x6c616e7465726e696e6861,
  0x6c6170736f, 0x6c617175656172, 0x6c617374726f, 0x6c6175746f, 0x6c6176726172, 0x6c6178617469766f, 0x6c617a6572, 0x6c656173696e67,
  0x6c65627265, 0x6c6563696f6e6172, 0x6c65646f, 0x6c6567756d696e6f736f, 0x6c656974757261, 0x6c656c65, 0x6c656d757265, 0x6c656e746f,
  0x6c656f6e6172646f, 0x6c656f706172646f, 0x6c6570746f6e, 0x6c65717565, 0x6c65737465, 0x6c6574726569726f, 0x6c6575636f6369746f, 0x6c6576697469636f,
  0x6c657869636f6c6f676f, 0x6c68616d61, 0x6c6875666173, 0x6c69616d65, 0x6c69636f726f736f, 0x6c69646f6361696e61, 0x6c696c6970757469616e6f, 0x6c696d7573696e65,
  0x6c696e6f7469706f, 0x6c69706f70726f7465696e61, 0x6c69717569646f73, 0x6c697269736d6f, 0x6c6973757261, 0x6c697475726769636f, 0x6c6976726f73, 0x6c69786f,
  0x6c6f62756c6f, 0x6c6f6375746f72, 0x6c6f646f, 0x6c6f67726f, 0x6c6f6a69737461, 0x6c6f6d6272696761, 0x6c6f6e747261, 0x6c6f6f70]
private def v1Pt7 : List Nat := [
  0x6c6f7175617a, 0x6c6f726f7461, 0x6c6f73616e676f, 0x6c6f747573, 0x6c6f75766f72, 0x6c756172, 0x6c756272696669636176656c, 0x6c7563726f73,
  0x6c756775627265, 0x6c756973, 0x6c756d696e6f736f, 0x6c756e657461, 0x6c757374726f736f, 0x6c75746f, 0x6c75766173, 0x6c7578757269616e7465,
  0x6c757a6569726f, 0x6d616475726f, 0x6d61657374726f, 0x6d6166696f736f, 0x6d6167726f, 0x6d6169757363756c61, 0x6d616a6f7269746172696f, 0x6d616c766973746f,
  0x6d616d757465, 0x6d616e7574656e63616f, 0x6d61706f74656361, 0x6d617175696e69737461, 0x6d61727a697061, 0x6d6173747572626172, 0x6d617475746f, 0x6d6175736f6c6575,
  0x6d6176696f736f, 0x6d6178697865, 0x6d617a75726361, 0x6d65616e64726f, 0x6d65636861, 0x6d6564757361, 0x6d65666973746f66656c69636f, 0x6d6567657261,
  0x6d656972696e686f, 0x6d656c726f, 0x6d656d6f72697a6172, 0x6d656e75, 0x6d657175657472656665, 0x6d657274696f6c617465, 0x6d657374726961, 0x6d6574726f76696172696f,
  0x6d6578696c68616f, 0x6d657a616e696e6f, 0x6d696175, 0x6d6963726f73736567756e646f, 0x6d69646961, 0x6d69677261746f72696f, 0x6d696d6f7361, 0x6d696e75746f,
  0x6d696f736f746973, 0x6d697274696c6f, 0x6d69737475726172, 0x6d69747a766168, 0x6d6975646f73, 0x6d69787572756361, 0x6d6e656d6f6e69636f, 0x6d6f6167656d,
  0x6d6f62696c697a6172, 0x6d6f64756c6f, 0x6d6f6572, 0x6d6f666f, 0x6d6f676e6f, 0x6d6f697461, 0x6d6f6c7573636f, 0x6d6f6e756d656e746f,
  0x6d6f7175656361, 0x6d6f7275626978616261, 0x6d6f737472756172696f, 0x6d6f7472697a, 0x6d6f757365, 0x6d6f766976656c, 0x6d6f7a6172656c61, 0x6d7561727261,
  0x6d7563756c6d616e6f, 0x6d75646f, 0x6d75676972, 0x6d7569746f73, 0x6d756d756e6861, 0x6d756e6972, 0x6d756f6e, 0x6d757175697261,
  0x6d7572726f73, 0x6d757373656c696e61, 0x6e61636f6573, 0x6e61646f, 0x6e616674616c696e61, 0x6e61676f, 0x6e61697065, 0x6e616a61,
  0x6e616c67756d, 0x6e616d6f726f, 0x6e616e7175696d, 0x6e61706f6c6974616e6f, 0x6e617175696c6f, 0x6e617363696d656e746f, 0x6e617574696c6f, 0x6e6176696f73,
  0x6e617a69737461, 0x6e6562756c6f736f, 0x6e6563746172696e61, 0x6e6566726f6c6f676f, 0x6e65677573, 0x6e656c6f7265, 0x6e656e75666172, 0x6e65706f7469736d6f,
  0x6e657276757261, 0x6e65737465, 0x6e6574756e6f, 0x6e657574726f6e, 0x6e65766f6569726f, 0x6e6577746f6e69616e6f, 0x6e65786f, 0x6e68656e68656e68656d,
  0x6e686f717565, 0x6e6967657269616e6f, 0x6e69696c69737461, 0x6e696e686f, 0x6e696f62696f, 0x6e69706f6e69636f, 0x6e697175656c6172, 0x6e697276616e61]
private def v1Pt8 : List Nat := [
  0x6e6973746f, 0x6e6974726f676c69636572696e61, 0x6e69766f736f, 0x6e6f6272657a61, 0x6e6f6369766f, 0x6e6f656c, 0x6e6f677565697261, 0x6e6f69766f,
  0x6e6f6a6f, 0x6e6f6d696e617469766f, 0x6e6f6e75706c6f, 0x6e6f72756567756573, 0x6e6f7374616c6769636f, 0x6e6f7475726e6f, 0x6e6f7576656175, 0x6e75616e6361,
  0x6e75626c6172, 0x6e75636c656f746964656f, 0x6e756469737461, 0x6e756c6f, 0x6e756d69736d617469636f, 0x6e756e7175696e6861, 0x6e757063696173, 0x6e757472697469766f,
  0x6e7576656e73, 0x6f61736973, 0x6f626365636172, 0x6f6265736f, 0x6f626974756172696f, 0x6f626a65746f73, 0x6f626c6f6e676f, 0x6f626e6f78696f,
  0x6f6272696761746f72696f, 0x6f62737472756972, 0x6f627475736f, 0x6f627573, 0x6f6276696f, 0x6f6361736f, 0x6f636369706974616c, 0x6f6365616e6f677261666f,
  0x6f63696f736f, 0x6f636c757369766f, 0x6f636f72726572, 0x6f637265, 0x6f63746f676f6e6f, 0x6f64616c69736361, 0x6f64697373656961, 0x6f646f72696669636f,
  0x6f657273746564, 0x6f65737465, 0x6f666572746172, 0x6f666964696f, 0x6f6674616c6d6f6c6f676f, 0x6f67697661, 0x6f67756d, 0x6f6967616c65,
  0x6f697461766f, 0x6f69746f63656e746f73, 0x6f6a6572697a61, 0x6f6c61726961, 0x6f6c656f736f, 0x6f6c6661746f, 0x6f6c686f73, 0x6f6c697665697261,
  0x6f6c6d6f, 0x6f6c6f72, 0x6f6c7669646176656c, 0x6f6d627564736d616e, 0x6f6d656c657465697261, 0x6f6d69746972, 0x6f6d6f706c617461, 0x6f6e616e69736d6f,
  0x6f6e64756c6172, 0x6f6e65726f736f, 0x6f6e6f6d61746f706569636f, 0x6f6e746f6c6f6769636f, 0x6f6e7573, 0x6f6e7a65, 0x6f70616c657363656e7465, 0x6f7063696f6e616c,
  0x6f70657269737469636f, 0x6f70696f, 0x6f706f73746f, 0x6f70726f6272696f, 0x6f70746f6d65747269737461, 0x6f70757363756c6f, 0x6f7261746f72696f, 0x6f72626974616c,
  0x6f72636172, 0x6f7266616f, 0x6f72697861, 0x6f726c61, 0x6f726e69746f6c6f676f, 0x6f72717569646561, 0x6f72746f72726f6d6269636f, 0x6f7276616c686f,
  0x6f7363756c6f, 0x6f736d6f7469636f, 0x6f737375646f, 0x6f7374726f676f646f, 0x6f746172696f, 0x6f74697465, 0x6f75726f, 0x6f75736172,
  0x6f75747562726f, 0x6f75766972, 0x6f766172696f, 0x6f7665726e69676874, 0x6f76697061726f, 0x6f766e69, 0x6f766f766976697061726f, 0x6f76756c6f,
  0x6f78616c61, 0x6f78656e7465, 0x6f786975726f, 0x6f786f737369, 0x6f7a6f6e697a6172, 0x70616369656e7465, 0x70616374756172, 0x706164726f6e697a6172,
  0x7061657465, 0x7061676f646569726f, 0x70616978616f, 0x70616a656d, 0x70616c756469736d6f, 0x70616d706173, 0x70616e74757272696c6861, 0x70617075646f]
private def v1Pt9 : List Nat := [
  0x70617175697374616e6573, 0x706173746f736f, 0x7061747561, 0x7061756c6f, 0x7061757a696e686f73, 0x7061766f726f736f, 0x70617861, 0x70617a6573,
  0x7065616f, 0x706563756e696172696f, 0x706564756e63756c6f, 0x70656761736f, 0x70656978696e686f, 0x70656a6f72617469766f, 0x70656c766973, 0x70656e75726961,
  0x706571756e6f, 0x706574756e6961, 0x70657a616461, 0x7069617569656e7365, 0x706963746f7269636f, 0x70696572726f, 0x7069676d6575, 0x70696a616d61,
  0x70696c756c6173, 0x70696d706f6c686f, 0x70696e74757261, 0x70696f726172, 0x7069706f636172, 0x7069717565746569726f, 0x706972756c69746f, 0x706973746f6c6569726f,
  0x70697475697461726961, 0x7069766f746172, 0x7069786f7465, 0x70697a7a61726961, 0x706c6973746f63656e6f, 0x706c6f746172, 0x706c7576696f6d65747269636f, 0x706e65756d6f6e69636f,
  0x706f636f, 0x706f64726964616f, 0x706f6574697361, 0x706f67726f6d, 0x706f6973, 0x706f6c766f726f7361, 0x706f6d706f736f, 0x706f6e64657261646f,
  0x706f6e7475646f, 0x706f70756c6f736f, 0x706f71756572, 0x706f72766972, 0x706f7375646f, 0x706f74726f, 0x706f75736f, 0x706f766f6172,
  0x7072617a6f, 0x7072657a6172, 0x70726976696c6567696f73, 0x70726f78696d6f, 0x707275737369616e6f, 0x70736575646f706f6465, 0x70736f7269617365, 0x707465726f73736175726f73,
  0x707469616c696e61, 0x70746f6c656d6169636f, 0x7075646f72, 0x70756572696c, 0x70756665, 0x707567696c69737461, 0x70756972, 0x70756a616e7465,
  0x70756c766572697a6172, 0x70756d6261, 0x70756e6b, 0x707572756c656e746f, 0x70757374756c61, 0x707574736368, 0x70757865, 0x71756174726f63656e746f73,
  0x717565747a616c, 0x717569786f746573636f, 0x71756f74697a6176656c, 0x726162756a696365, 0x72616369737461, 0x7261646f6e696f, 0x7261666961, 0x72616775,
  0x72616a61646f, 0x72616c6f, 0x72616d706569726f, 0x72616e7a696e7a61, 0x726170746f72, 0x72617175697469736d6f, 0x7261726f, 0x72617375726172,
  0x7261746f65697261, 0x726176696f6c69, 0x72617a6f6176656c, 0x7265617669766172, 0x7265627573636172, 0x72656375736176656c, 0x726564757a6976656c, 0x72656578706f736963616f,
  0x72656675746176656c, 0x72656775726769746172, 0x72656976696e6469636176656c, 0x72656a7576656e657363696d656e746f, 0x72656c7661, 0x72656d756e65726176656c, 0x72656e756e63696172, 0x72656f7269656e746172,
  0x72657075786f, 0x72657175697369746f, 0x726573756d6f, 0x72657475726e6f, 0x72657574696c697a6172, 0x7265766f6c7669646f, 0x72657a6f6e656172, 0x72696163686f,
  0x7269626f73736f6d6f, 0x7269636f7461, 0x7269646963756c6f, 0x7269666c65, 0x7269676f726f736f, 0x72696a6f, 0x72696d656c, 0x72696e73]
private def v1Pt10 : List Nat := [
  0x72696f73, 0x72697175657a61, 0x72697175697861, 0x726973736f6c65, 0x72697475616c69737469636f, 0x726976616c697a6172, 0x72697861, 0x726f627573746f,
  0x726f636f636f, 0x726f646f76696172696f, 0x726f6572, 0x726f676f, 0x726f6a616f, 0x726f6c6f, 0x726f6d70696d656e746f, 0x726f6e726f6e6172,
  0x726f71756569726f, 0x726f727175616c, 0x726f73746f, 0x726f74756e646f, 0x726f7578696e6f6c, 0x726f786f, 0x726f79616c, 0x72756173,
  0x727563756c61, 0x727564696d656e746f73, 0x7275656c61, 0x7275666f, 0x7275676f736f, 0x727569766f, 0x72756c65, 0x72756d6f726f736f,
  0x72756e69636f, 0x72757074757261, 0x727572616c, 0x7275737469636f, 0x727574696c6172, 0x7361617269616e6f, 0x736162756a6f, 0x73616375646972,
  0x7361646f6d61736f717569737461, 0x7361667261, 0x7361677569, 0x73616973, 0x73616d75726169, 0x73616e74756172696f, 0x7361706f, 0x73617175656172,
  0x736172747269616e6f, 0x73617475726e6f, 0x7361756465, 0x7361757661, 0x7361766569726f, 0x7361786f666f6e69737461, 0x73617a6f6e616c, 0x73636865727a6f,
  0x736372697074, 0x7365617261, 0x7365626f7272656961, 0x736563757261, 0x736564757a6972, 0x736566617264696d, 0x73656775726f, 0x73656a61,
  0x73656c766173, 0x73656d707265, 0x73656e7a616c61, 0x736570756c74757261, 0x736571756f6961, 0x73657374657263696f, 0x73657475706c6f, 0x73657573,
  0x7365766963696172, 0x73657a6f6e69736d6f, 0x7368616c6f6d, 0x7369616d6573, 0x736962696c616e7465, 0x73696372616e6f, 0x7369647261, 0x736966696c697469636f,
  0x7369676e6f73, 0x73696c766f, 0x73696d756c74616e656f, 0x73696e7573697465, 0x73696f6e69737461, 0x736972696f, 0x73697375646f, 0x736974756172,
  0x736976616e, 0x736c696465, 0x736c6f67616e, 0x736f6172, 0x736f6272696f, 0x736f6372617469636f, 0x736f646f6d697a6172, 0x736f657267756572,
  0x736f667477617265, 0x736f67726f, 0x736f6a61, 0x736f6c766572, 0x736f6d656e7465, 0x736f6e736f, 0x736f70726f, 0x736f7175657465,
  0x736f727665746569726f, 0x736f737365676f, 0x736f7475726e6f, 0x736f757361666f6e65, 0x736f76696e696365, 0x736f7a696e686f, 0x73756176697a6172, 0x737562766572746572,
  0x737563757273616c, 0x7375646f72697061726f, 0x737566726167696f, 0x7375676573746f6573, 0x7375697465, 0x73756a6f, 0x73756c74616f, 0x73756d756c61,
  0x73756e74756f736f, 0x73756f72, 0x73757075726172, 0x737572756261, 0x737573746f, 0x73757475726172, 0x737576656e6972, 0x746162756c657461]
private def v1Pt11 : List Nat := [
  0x7461636f, 0x7461646a69717565, 0x746166657461, 0x7461676172656c696365, 0x7461697469616e6f, 0x74616c76657a, 0x74616d706f75636f, 0x74616e7a616e69616e6f,
  0x74616f69737461, 0x746170756d65, 0x74617175696f6e, 0x74617275676f, 0x746173636172, 0x746174756172, 0x746175746f6c6f6769636f, 0x7461766f6c61,
  0x746178696f6e6f6d69737461, 0x74636865636f736c6f7661636f, 0x74656174726f6c6f676f, 0x746563746f6e69736d6f, 0x746564696f736f, 0x7465666c6f6e, 0x746567756d656e746f, 0x746569786f,
  0x74656c7572696f, 0x74656d706f726173, 0x74656e7565, 0x74656f736f6669636f, 0x74657069646f, 0x74657175696c61, 0x746572726f7269737461, 0x746573746f737465726f6e61,
  0x7465747269636f, 0x746575746f6e69636f, 0x74657665, 0x74657875676f, 0x7469617261, 0x7469626961, 0x7469657465, 0x7469666f696465,
  0x74696772657361, 0x74696a6f6c6f, 0x74696c696e746172, 0x74696d70616e6f, 0x74696e7475726569726f, 0x74697175657465, 0x7469726f7465696f, 0x74697369636f,
  0x746974756c6f73, 0x74697665, 0x746f6172, 0x746f626f6761, 0x746f6675, 0x746f676f6c6573, 0x746f6963696e686f, 0x746f6c75656e6f,
  0x746f6d6f677261666f, 0x746f6e74757261, 0x746f706f6e696d6f, 0x746f7175696f, 0x746f7276656c696e686f, 0x746f73746172, 0x746f746f, 0x746f75726f,
  0x746f78696e61, 0x7472617a6572, 0x7472657a656e746f73, 0x7472697669616c6964616465, 0x74726f766f6172, 0x7472757461, 0x7475617265677565, 0x747562756c6172,
  0x747563616e6f, 0x7475646f, 0x7475666f, 0x747569737465, 0x74756c697061, 0x74756d756c74756f736f, 0x74756e6973696e6f, 0x747570696e697175696d,
  0x747572766f, 0x74757475, 0x756372616e69616e6f, 0x7564656e69737461, 0x7566616e69737461, 0x75666f6c6f676f, 0x75676172697469636f, 0x7569737465,
  0x7569766f, 0x756c6365726f736f, 0x756c656d61, 0x756c74726176696f6c657461, 0x756d62696c6963616c, 0x756d65726f, 0x756d69646f, 0x756d6c617574,
  0x756e616e696d6964616465, 0x756e6573636f, 0x756e67756c61646f, 0x756e686569726f, 0x756e69766f636f, 0x756e74756f736f, 0x7572616e6f, 0x757262616e6f,
  0x7572646972, 0x757265747261, 0x757267656e7465, 0x7572696e6f6c, 0x75726e61, 0x75726f6c6f676f, 0x7572726f, 0x757273756c696e61,
  0x757274696761, 0x7572757065, 0x75736176656c, 0x75736265717565, 0x75736569, 0x7573696e6569726f, 0x75737572706172, 0x757465726f,
  0x7574696c697a6172, 0x75746f7069636f, 0x7576756c6172, 0x75786f7269636964696f, 0x766163756f, 0x766164696f, 0x76616775656172, 0x76616976656d]
private def v1Pt12 : List Nat := [
  0x76616c76756c61, 0x76616d7069726f, 0x76616e74616a6f736f, 0x7661706f726f736f, 0x76617175696e6861, 0x7661727a69616e6f, 0x766173746f, 0x7661746963696e696f,
  0x766175646576696c6c65, 0x76617a696f, 0x766561646f, 0x76656469636f, 0x7665656d656e7465, 0x7665676574617469766f, 0x7665696f, 0x76656a61,
  0x76656c75646f, 0x76656e757369616e6f, 0x76657264616465, 0x7665727665, 0x76657374756172696f, 0x7665747573746f, 0x76657861746f72696f, 0x76657a6573,
  0x76696176656c, 0x7669627261746f72696f, 0x766963746f72, 0x766963756e6861, 0x766964726f73, 0x766965746e616d697461, 0x7669676f726f736f, 0x76696c6970656e64696172,
  0x76696d65, 0x76696e74656d, 0x76696f6c6f6e63656c6f, 0x76697175696e677565, 0x7669727573, 0x76697375616c697a6172, 0x76697475706572696f, 0x766975766f,
  0x7669766f, 0x76697a6972, 0x766f6172, 0x766f63696665726172, 0x766f6475, 0x766f676172, 0x766f696c65, 0x766f6c766572,
  0x766f6d69746f, 0x766f6e74616465, 0x766f7274696365, 0x766f73736f, 0x766f746f, 0x766f766f7a696e6861, 0x766f7965757365, 0x766f7a6573,
  0x76756c7661, 0x76757074, 0x7765737465726e, 0x78616472657a, 0x78616c65, 0x78616d7075, 0x78616e676f, 0x7861726f7065,
  0x786175616c, 0x786176616e7465, 0x786178696d, 0x78656e6f6e696f, 0x78657061, 0x7865726f78, 0x786963617261, 0x7869666f7061676f,
  0x7869697461, 0x78696c6f67726176757261, 0x78696e78696d, 0x786973746f736f, 0x78697869, 0x786f646f, 0x786f67756d, 0x787563726f,
  0x7a6162756d6261, 0x7a6167756569726f, 0x7a616d6269616e6f, 0x7a616e7a6172, 0x7a6172706172, 0x7a656275, 0x7a656669726f, 0x7a656c6f736f,
  0x7a656e697465, 0x7a756d6269]

/-- Words 1626, src/words/catalogs/electrum_v1.cpp:1661-3292. -/
def v1Pt : List Nat :=
  (v1Pt0 ++ (v1Pt1 ++ (v1Pt2 ++ (v1Pt3 ++ (v1Pt4 ++ (v1Pt5 ++ (v1Pt6 ++ (v1Pt7 ++ (v1Pt8 ++ (v1Pt9 ++ (v1Pt10 ++ (v1Pt11 ++ (v1Pt12)))))))))))))

end Verif.Catalog
