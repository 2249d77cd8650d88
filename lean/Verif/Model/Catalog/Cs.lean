/-!
# The `cs` word list of src/words/catalogs/mnemonic.cpp:8249-10302 (generated by tools/gen_words.py)

Each word is the number its UTF-8 bytes spell, most significant byte first.
-/
namespace Verif.Catalog

private def cs0 : List Nat := [
  0x616264696b616365, 0x61626563656461, 0x616472657361, 0x616772657365, 0x616b6365, 0x616b746f766b61, 0x616c656a, 0x616c6b6f686f6c,
  0x616d707574616365, 0x616e616e6173, 0x616e64756c6b61, 0x616e656b646f7461, 0x616e6b657461, 0x616e74696b61, 0x616e756c6f766174, 0x6172636861,
  0x61726f67616e6365, 0x617366616c74, 0x6173697374656e74, 0x6173706972616365, 0x6173746d61, 0x617374726f6e6f6d, 0x61746c6173, 0x61746c6574696b61,
  0x61746f6c, 0x6175746f627573, 0x617a796c, 0x6261626b61, 0x626163686f72, 0x626163696c, 0x626163756c6b61, 0x6261646174656c,
  0x626167657461, 0x62616772, 0x6261686e6f, 0x62616b7465726965, 0x62616c616461, 0x62616c65746b61, 0x62616c6b6f6e, 0x62616c6f6e656b,
  0x62616c76616e, 0x62616c7a61, 0x62616d627573, 0x62616e6b6f6d6174, 0x626172626172, 0x6261726574, 0x6261726d616e, 0x6261726f6b6f,
  0x6261727661, 0x62617465726b61, 0x6261746f68, 0x6261766c6e61, 0x62617a616c6b61, 0x62617a696c696b61, 0x62617a756b61, 0x6265646e61,
  0x626572616e, 0x626573656461, 0x626573746965, 0x6265746f6e, 0x62657a696e6b61, 0x62657a6d6f63, 0x62657a74616b, 0x626963796b6c,
  0x6269646c6f, 0x62696674656b, 0x62696b696e79, 0x62696c616e6365, 0x62696f67726166, 0x62696f6c6f67, 0x6269747661, 0x62697a6f6e,
  0x626c61686f627974, 0x626c61746f756368, 0x626c65636861, 0x626c6564756c65, 0x626c65736b, 0x626c696b6174, 0x626c697a6e61, 0x626c6f6b6f766174,
  0x626c6f75646974, 0x626c7564, 0x626f62656b, 0x626f6272, 0x626f646c696e61, 0x626f646e6f7574, 0x626f6861746f7374, 0x626f6a6b6f74,
  0x626f6a6f766174, 0x626f6b6f727973, 0x626f6c657374, 0x626f726563, 0x626f726f76696365, 0x626f7461, 0x626f7562656c, 0x626f7563686174,
  0x626f756461, 0x626f756c65, 0x626f75726174, 0x626f786572, 0x6272616461766b61, 0x6272616d626f7261, 0x6272616e6b61, 0x6272617472,
  0x627265707461, 0x6272696b657461, 0x62726b6f, 0x62726c6f68, 0x62726f6e7a, 0x62726f736b6576, 0x6272756e65746b61, 0x62727573696e6b61,
  0x62727a6461, 0x62727a79, 0x6275626c696e61, 0x6275626e6f766174, 0x627563687461, 0x6275646974656c, 0x6275646b61, 0x6275646f7661,
  0x6275666574, 0x62756a61726f7374, 0x62756b76696365, 0x62756c646f6b, 0x62756c7661, 0x62756e6461, 0x62756e6b72, 0x6275727a61]
private def cs1 : List Nat := [
  0x627574696b, 0x6275766f6c, 0x62757a6f6c61, 0x6279646c6574, 0x62796c696e61, 0x6279746f766b61, 0x627a756b6f74, 0x636170617274,
  0x63617265766e61, 0x63656472, 0x636564756c65, 0x63656a6368, 0x63656a6e, 0x63656c61, 0x63656c6572, 0x63656c6b656d,
  0x63656c6e696365, 0x63656e696e61, 0x63656e6e6f7374, 0x63656e6f766b61, 0x63656e7472756d, 0x63656e7a6f72, 0x636573746f706973, 0x6365746b61,
  0x6368616c757061, 0x6368617061646c6f, 0x63686172697461, 0x6368617461, 0x6368656368746174, 0x6368656d6965, 0x63686963686f74, 0x63686972757267,
  0x63686c6164, 0x63686c656261, 0x63686c75626974, 0x63686d656c, 0x63686d757261, 0x63686f626f74, 0x63686f63686f6c, 0x63686f646261,
  0x63686f6c657261, 0x63686f6d6f7574, 0x63686f706974, 0x63686f726f6261, 0x63686f76, 0x63687261706f74, 0x6368726c6974, 0x63687274,
  0x6368727570, 0x63687469766f7374, 0x63687564696e61, 0x636875746e6174, 0x6368766174, 0x636876696c6b61, 0x6368766f7374, 0x6368796261,
  0x63687973746174, 0x636879746974, 0x636962756c65, 0x6369676172657461, 0x636968656c6e61, 0x6369686c61, 0x63696e6b6f74, 0x6369726b7573,
  0x6369737465726e61, 0x636974616365, 0x636974727573, 0x63697a696e6563, 0x63697a6f7374, 0x636c6f6e61, 0x636f6b6f6c6976, 0x636f75766174,
  0x63746974656c, 0x63746e6f7374, 0x6375646e6f7374, 0x63756b657461, 0x63756b72, 0x6375706f74, 0x6376616b6e6f7574, 0x6376616c,
  0x6376696b, 0x6376726b6f74, 0x63796b6c69737461, 0x64616c656b6f, 0x646172656261, 0x646174656c, 0x646174756d, 0x6463657261,
  0x646562617461, 0x646563686f766b61, 0x6465636962656c, 0x64656669636974, 0x6465666c616365, 0x64656b6c, 0x64656b726574, 0x64656d6f6b726174,
  0x64657072657365, 0x6465726279, 0x6465736b61, 0x646574656b746976, 0x64696b6f6272617a, 0x64696b746f766174, 0x64696f6461, 0x6469706c6f6d,
  0x6469736b, 0x646973706c656a, 0x64697661646c6f, 0x6469766f6368, 0x646c616861, 0x646c6f75686f, 0x646c75686f706973, 0x646e6573,
  0x646f62726f, 0x646f627974656b, 0x646f63656e74, 0x646f636875746974, 0x646f646e6573, 0x646f686c6564, 0x646f686f6461, 0x646f687261,
  0x646f6a656d, 0x646f6a6e696365, 0x646f6b6c6164, 0x646f6b6f6c61, 0x646f6b746f72, 0x646f6b756d656e74, 0x646f6c6172, 0x646f6c657661]
private def cs2 : List Nat := [
  0x646f6c696e61, 0x646f6d61, 0x646f6d696e616e74, 0x646f6d6c75766974, 0x646f6d6f76, 0x646f6e75746974, 0x646f706164, 0x646f706973,
  0x646f706c6e6974, 0x646f706f737564, 0x646f70726f766f64, 0x646f707573746974, 0x646f72617a6974, 0x646f726f7374, 0x646f7274, 0x646f736168,
  0x646f736c6f76, 0x646f73746174656b, 0x646f737564, 0x646f73797461, 0x646f74617a, 0x646f74656b, 0x646f746b6e6f7574, 0x646f75666174,
  0x646f75746e6174, 0x646f766f7a6365, 0x646f7a616475, 0x646f7a6e6174, 0x646f7a6f726365, 0x647261686f7461, 0x6472616b, 0x6472616d6174696b,
  0x647261766563, 0x6472617a65, 0x6472646f6c, 0x64726f626e6f7374, 0x64726f6765726965, 0x64726f7a64, 0x6472736e6f7374, 0x6472746974,
  0x64727a6f7374, 0x647562656e, 0x647563686f766e6f, 0x647564656b, 0x64756861, 0x6475686f766b61, 0x6475736974, 0x6475736e6f,
  0x6475746f7374, 0x64766f6a696365, 0x64766f726563, 0x64796e616d6974, 0x656b6f6c6f67, 0x656b6f6e6f6d6965, 0x656c656b74726f6e, 0x656c69707361,
  0x656d61696c, 0x656d697365, 0x656d6f6365, 0x656d7061746965, 0x6570697a6f6461, 0x65706f636861, 0x65706f70656a, 0x65706f73,
  0x6573656a, 0x6573656e6365, 0x65736b6f727461, 0x65736b796d6f, 0x6574696b657461, 0x6575666f726965, 0x65766f6c756365, 0x6578656b756365,
  0x65786b75727a65, 0x6578706564696365, 0x6578706c6f7a65, 0x6578706f7274, 0x65787472616b74, 0x6661636b61, 0x66616a666b61, 0x66616b756c7461,
  0x66616e6174696b, 0x66616e74617a6965, 0x6661726d61636965, 0x6661766f726974, 0x66617a6f6c65, 0x6665646572616365, 0x66656a65746f6e, 0x66656e6b61,
  0x6669616c6b61, 0x6669677572616e74, 0x66696c6f7a6f66, 0x66696c7472, 0x66696e616e6365, 0x66696e7461, 0x666978616365, 0x666a6f7264,
  0x666c616e656c, 0x666c697274, 0x666c6f74696c61, 0x666f6e64, 0x666f73666f72, 0x666f7462616c, 0x666f746b61, 0x666f746f6e,
  0x6672616b6365, 0x667265736b61, 0x66726f6e7461, 0x66756b6172, 0x66756e6b6365, 0x66797a696b61, 0x67616c656a65, 0x676172616e74,
  0x67656e6574696b61, 0x67656f6c6f67, 0x67696c6f74696e61, 0x676c617a757261, 0x676c656a74, 0x676f6c656d, 0x676f6c6669737461, 0x676f74696b61,
  0x67726166, 0x6772616d6f666f6e, 0x6772616e756c65, 0x67726570, 0x6772696c, 0x67726f67, 0x67726f7465736b61, 0x67756d61]
private def cs3 : List Nat := [
  0x686164696365, 0x68616472, 0x68616c61, 0x68616c656e6b61, 0x68616e6261, 0x68616e6f706973, 0x6861726661, 0x68617270756e61,
  0x68617672616e, 0x6865626b6f7374, 0x68656a6b616c, 0x68656a6e6f, 0x68656a746d616e, 0x68656b746172, 0x68656c6d61, 0x68656d61746f6d,
  0x6865726563, 0x6865726e61, 0x6865736c6f, 0x68657a6b79, 0x686973746f72696b, 0x686c61646f766b61, 0x686c617369766b79, 0x686c617661,
  0x686c65646174, 0x686c656e, 0x686c6f6461766563, 0x686c6f68, 0x686c6f75706f7374, 0x686c746174, 0x686c7562696e61, 0x686c7563686f7461,
  0x686d6174, 0x686d6f7461, 0x686d797a, 0x686e6973, 0x686e6f6a69766f, 0x686e6f7574, 0x686f626c696e61, 0x686f626f6a,
  0x686f6368, 0x686f64696e79, 0x686f646c6174, 0x686f646e6f7461, 0x686f646f766174, 0x686f6a6e6f7374, 0x686f6b656a, 0x686f6c696e6b61,
  0x686f6c6b61, 0x686f6c7562, 0x686f6d6f6c65, 0x686f6e69746261, 0x686f6e6f72616365, 0x686f72616c, 0x686f726461, 0x686f72697a6f6e74,
  0x686f726b6f, 0x686f726c69766563, 0x686f726d6f6e, 0x686f726e696e61, 0x686f726f736b6f70, 0x686f727374766f, 0x686f73706f6461, 0x686f7374696e61,
  0x686f746f766f7374, 0x686f756261, 0x686f7566, 0x686f75706174, 0x686f75736b61, 0x686f766f72, 0x687261646261, 0x6872616e696365,
  0x687261766f7374, 0x6872617a6461, 0x6872626f6c656b, 0x687264696e61, 0x6872646c6f, 0x6872646f7374, 0x68726e656b, 0x68726f626b61,
  0x68726f6d616461, 0x68726f74, 0x68726f756461, 0x68726f7a656e, 0x687273746b61, 0x687275626f7374, 0x6872797a6174, 0x687562656e6f7374,
  0x6875626e6f7574, 0x6875646261, 0x68756b6f74, 0x68756d72, 0x687573697461, 0x687573746f7461, 0x68766f7a64, 0x6879626e6f7374,
  0x68796472616e74, 0x68796769656e61, 0x68796d6e61, 0x687973746572696b, 0x6964796c6b61, 0x69686e6564, 0x696b6f6e61, 0x696c757a65,
  0x696d756e697461, 0x696e66656b6365, 0x696e666c616365, 0x696e6b61736f, 0x696e6f76616365, 0x696e7370656b6365, 0x696e7465726e6574, 0x696e76616c696461,
  0x696e766573746f72, 0x696e7a65726365, 0x69726f6e6965, 0x6a61626c6b6f, 0x6a6163687461, 0x6a61686f6461, 0x6a616b6d696c65, 0x6a616b6f7374,
  0x6a616c6f766563, 0x6a616e746172, 0x6a61726d61726b, 0x6a61726f, 0x6a6173616e, 0x6a61736e6f, 0x6a61746b61, 0x6a61766f72]
private def cs4 : List Nat := [
  0x6a617a796b, 0x6a6564696e6563, 0x6a65646c65, 0x6a65646e6174656c, 0x6a65686c616e, 0x6a656b6f74, 0x6a656c656e, 0x6a656c69746f,
  0x6a656d6e6f7374, 0x6a656e6f6d, 0x6a6570696365, 0x6a657365746572, 0x6a65766974, 0x6a657a646563, 0x6a657a65726f, 0x6a696e616b,
  0x6a696e6479, 0x6a696e6f6368, 0x6a69736b7261, 0x6a6973746f7461, 0x6a6974726e696365, 0x6a697a7661, 0x6a6d656e6f766174, 0x6a6f67757274,
  0x6a75727461, 0x6b616261726574, 0x6b6162656c, 0x6b6162696e6574, 0x6b6163686e61, 0x6b61646574, 0x6b616469646c6f, 0x6b6168616e,
  0x6b616a616b, 0x6b616a757461, 0x6b616b616f, 0x6b616b747573, 0x6b616c616d697461, 0x6b616c686f7479, 0x6b616c696272, 0x6b616c6e6f7374,
  0x6b616d657261, 0x6b616d6b6f6c6976, 0x6b616d6e61, 0x6b616e6962616c, 0x6b616e6f65, 0x6b616e746f72, 0x6b6170616c696e61, 0x6b6170656c61,
  0x6b617069746f6c61, 0x6b61706b61, 0x6b61706c65, 0x6b61706f7461, 0x6b617072, 0x6b617075737461, 0x6b61707962617261, 0x6b6172616d656c,
  0x6b61726f746b61, 0x6b6172746f6e, 0x6b617361, 0x6b6174616c6f67, 0x6b617465647261, 0x6b61756365, 0x6b61757a61, 0x6b6176616c6563,
  0x6b617a616a6b61, 0x6b617a657461, 0x6b617a69766f7374, 0x6b64656b6f6c6976, 0x6b64657369, 0x6b65646c7562656e, 0x6b656d70, 0x6b6572616d696b61,
  0x6b696e6f, 0x6b6c6163656b, 0x6b6c616469766f, 0x6b6c616d, 0x6b6c61706f74, 0x6b6c6173696b61, 0x6b6c61756e, 0x6b6c6563,
  0x6b6c656e6261, 0x6b6c65706174, 0x6b6c65736e6f7574, 0x6b6c6964, 0x6b6c696d61, 0x6b6c69736e61, 0x6b6c6f626f756b, 0x6b6c6f6b616e,
  0x6b6c6f7061, 0x6b6c6f7562, 0x6b6c75626f766e61, 0x6b6c75736174, 0x6b6c757a6b6f7374, 0x6b6d656e, 0x6b6d69746174, 0x6b6d6f7472,
  0x6b6e696861, 0x6b6e6f74, 0x6b6f616c696365, 0x6b6f6265726563, 0x6b6f626b61, 0x6b6f626c696861, 0x6b6f62796c61, 0x6b6f636f7572,
  0x6b6f686f7574, 0x6b6f6a656e6563, 0x6b6f6b6f73, 0x6b6f6b74656a6c, 0x6b6f6c617073, 0x6b6f6c656461, 0x6b6f6c697a65, 0x6b6f6c6f,
  0x6b6f6d616e646f, 0x6b6f6d657461, 0x6b6f6d696b, 0x6b6f6d6e617461, 0x6b6f6d6f7261, 0x6b6f6d706173, 0x6b6f6d756e697461, 0x6b6f6e6174,
  0x6b6f6e63657074, 0x6b6f6e64696365, 0x6b6f6e6563, 0x6b6f6e66657365, 0x6b6f6e67726573, 0x6b6f6e696e61, 0x6b6f6e6b757273, 0x6b6f6e74616b74]
private def cs5 : List Nat := [
  0x6b6f6e7a65727661, 0x6b6f70616e6563, 0x6b6f706965, 0x6b6f706e6f7574, 0x6b6f70726f766b61, 0x6b6f7262656c, 0x6b6f72656b746f72, 0x6b6f726d69646c6f,
  0x6b6f726f70746576, 0x6b6f72707573, 0x6b6f72756e61, 0x6b6f7279746f, 0x6b6f727a6574, 0x6b6f7361746563, 0x6b6f73746b61, 0x6b6f74656c,
  0x6b6f746c657461, 0x6b6f746f756c, 0x6b6f756b6174, 0x6b6f7570656c6e61, 0x6b6f7573656b, 0x6b6f757a6c6f, 0x6b6f76626f6a, 0x6b6f7a61,
  0x6b6f7a6f726f68, 0x6b726162696365, 0x6b72616368, 0x6b72616a696e61, 0x6b72616c6f766174, 0x6b7261736f706973, 0x6b726176617461, 0x6b7265646974,
  0x6b72656a636172, 0x6b7265736261, 0x6b726576657461, 0x6b72696b6574, 0x6b726974696b, 0x6b72697a65, 0x6b726b61766563, 0x6b726d656c6563,
  0x6b726d69766f, 0x6b726f63616e, 0x6b726f6b, 0x6b726f6e696b61, 0x6b726f706974, 0x6b726f757061, 0x6b726f766b61, 0x6b7274656b,
  0x6b72756861646c6f, 0x6b727570696365, 0x6b7275746f7374, 0x6b7276696e6b61, 0x6b727963686c65, 0x6b7279707461, 0x6b72797374616c, 0x6b727974,
  0x6b75646c616e6b61, 0x6b756672, 0x6b756a6e6f7374, 0x6b756b6c61, 0x6b756c616a6461, 0x6b756c696368, 0x6b756c6b61, 0x6b756c6f6d6574,
  0x6b756c74757261, 0x6b756e61, 0x6b75706f64697675, 0x6b757274, 0x6b75727a6f72, 0x6b7574696c, 0x6b76616c697461, 0x6b766173696e6b61,
  0x6b766573746f72, 0x6b796e6f6c6f67, 0x6b7973656c696e61, 0x6b7974617261, 0x6b7974696365, 0x6b79746b61, 0x6b79746f766563, 0x6b797661646c6f,
  0x6c61627261646f72, 0x6c61636874616e, 0x6c61646e6f7374, 0x6c61696b, 0x6c616b6f6d6563, 0x6c616d656c61, 0x6c616d7061, 0x6c616e6f766b61,
  0x6c6173696365, 0x6c61736f, 0x6c617374757261, 0x6c6174696e6b61, 0x6c6176696e61, 0x6c65626b61, 0x6c65636b6479, 0x6c6564656e,
  0x6c65646e696365, 0x6c65646f766b61, 0x6c656476696e61, 0x6c6567656e6461, 0x6c65676965, 0x6c656772616365, 0x6c65686365, 0x6c65686b6f7374,
  0x6c65686e6f7574, 0x6c656b74766172, 0x6c656e6f63686f64, 0x6c656e74696c6b61, 0x6c6570656e6b61, 0x6c657069646c6f, 0x6c657461646c6f, 0x6c65746563,
  0x6c65746d6f, 0x6c65746f6b727568, 0x6c657668617274, 0x6c65766974616365, 0x6c65766f626f6b, 0x6c69627261, 0x6c6963686f746b61, 0x6c69646f6a6564,
  0x6c6964736b6f7374, 0x6c69686f76696e61, 0x6c696a61766563, 0x6c696c656b, 0x6c696d65746b61, 0x6c696e6965, 0x6c696e6b61, 0x6c696e6f6c65756d]
private def cs6 : List Nat := [
  0x6c6973746f706164, 0x6c6974696e61, 0x6c69746f766174, 0x6c6f6269737461, 0x6c6f6469766f64, 0x6c6f67696b61, 0x6c6f676f706564, 0x6c6f6b616c697461,
  0x6c6f6b6574, 0x6c6f6d636f766174, 0x6c6f70617461, 0x6c6f70756368, 0x6c6f7264, 0x6c6f736f73, 0x6c6f7472, 0x6c6f7564616c,
  0x6c6f7568, 0x6c6f756b61, 0x6c6f75736b6174, 0x6c6f766563, 0x6c737469766f7374, 0x6c756365726e61, 0x6c756369666572, 0x6c756d70,
  0x6c75736b, 0x6c75737472616365, 0x6c76696365, 0x6c797261, 0x6c7972696b61, 0x6c7973696e61, 0x6d6164616d, 0x6d61646c6f,
  0x6d616769737472, 0x6d616861676f6e, 0x6d616a6574656b, 0x6d616a6974656c, 0x6d616a6f72697461, 0x6d616b616b, 0x6d616b6f76696365, 0x6d616b72656c61,
  0x6d616c6261, 0x6d616c696e61, 0x6d616c6f766174, 0x6d616c76696365, 0x6d616d696e6b61, 0x6d616e646c65, 0x6d616e6b6f, 0x6d61726e6f7374,
  0x6d6173616b72, 0x6d61736b6f74, 0x6d61736f70757374, 0x6d6174696365, 0x6d617472696b61, 0x6d61747572697461, 0x6d617a616e6563, 0x6d617a69766f,
  0x6d617a6c6974, 0x6d617a75726b61, 0x6d646c6f6261, 0x6d656368616e696b, 0x6d65646974616365, 0x6d65646f76696e61, 0x6d656c617361, 0x6d656c6f756e,
  0x6d656e746f6c6b61, 0x6d65746c61, 0x6d65746f6461, 0x6d657472, 0x6d657a657261, 0x6d696772616365, 0x6d69686e6f7574, 0x6d6968756c65,
  0x6d696b696e61, 0x6d696b726f666f6e, 0x6d696c656e6563, 0x6d696c696d657472, 0x6d696c6f7374, 0x6d696d696b61, 0x6d696e636f766e61, 0x6d696e69626172,
  0x6d696e6f6d6574, 0x6d696e756c6f7374, 0x6d69736b61, 0x6d69737472, 0x6d69786f766174, 0x6d6c61646f7374, 0x6d6c6861, 0x6d6c686f76696e61,
  0x6d6c6f6b, 0x6d6c736174, 0x6d6c75766974, 0x6d6e696368, 0x6d6e6f68656d, 0x6d6f62696c, 0x6d6f636e6f7374, 0x6d6f64656c6b61,
  0x6d6f646c69746261, 0x6d6f68796c61, 0x6d6f6b726f, 0x6d6f6c656b756c61, 0x6d6f6d656e746b61, 0x6d6f6e6172636861, 0x6d6f6e6f6b6c, 0x6d6f6e737472756d,
  0x6d6f6e746f766174, 0x6d6f6e7a756e, 0x6d6f73617a, 0x6d6f736b7974, 0x6d6f7374, 0x6d6f746976616365, 0x6d6f746f726b61, 0x6d6f74796b61,
  0x6d6f75636861, 0x6d6f7564726f7374, 0x6d6f7a61696b61, 0x6d6f7a656b, 0x6d6f7a6f6c, 0x6d72616d6f72, 0x6d726176656e6563, 0x6d726b6576,
  0x6d7274766f6c61, 0x6d727a6574, 0x6d727a75746f7374, 0x6d73746974656c, 0x6d75647263, 0x6d75666c6f6e, 0x6d756c6174, 0x6d756d6965]
private def cs7 : List Nat := [
  0x6d756e696365, 0x6d75736574, 0x6d7574616365, 0x6d757a65756d, 0x6d757a696b616e74, 0x6d79736c69766563, 0x6d7a6461, 0x6e61626f75726174,
  0x6e61636879746174, 0x6e6164616365, 0x6e6164627974656b, 0x6e6164686f7a, 0x6e61646f62726f, 0x6e6164706973, 0x6e61686c6173, 0x6e61686e6174,
  0x6e61686f64696c65, 0x6e61687261646974, 0x6e616976697461, 0x6e616a65646e6f75, 0x6e616a6973746f, 0x6e616a6d6f7574, 0x6e616b6c6f6e6974, 0x6e616b6f6e6563,
  0x6e616b726d6974, 0x6e616c65766f, 0x6e616d617a6174, 0x6e616d6c75766974, 0x6e616e6f6d657472, 0x6e616f6b6f, 0x6e616f70616b, 0x6e616f7374726f,
  0x6e617061646174, 0x6e617065766e6f, 0x6e61706c6e6974, 0x6e61706e6f7574, 0x6e61706f736c6564, 0x6e6170726f73746f, 0x6e61726f646974, 0x6e6172756279,
  0x6e61727963686c6f, 0x6e617361646974, 0x6e6173656b6174, 0x6e61736c65706f, 0x6e6173746174, 0x6e61746f6c696b, 0x6e6176656e656b, 0x6e6176726368,
  0x6e61767a646f7279, 0x6e617a766174, 0x6e656265, 0x6e6563686174, 0x6e65636b79, 0x6e6564616c656b6f, 0x6e6564626174, 0x6e65647568,
  0x6e6567616365, 0x6e65686574, 0x6e65686f6461, 0x6e656a656e, 0x6e656a70727665, 0x6e656b6c6964, 0x6e656c69626f7374, 0x6e656d696c6f7374,
  0x6e656d6f63, 0x6e656f63686f7461, 0x6e656f6e6b61, 0x6e65706f6b6f6a, 0x6e65726f7374, 0x6e657276, 0x6e65736d79736c, 0x6e65736f756c6164,
  0x6e6574766f72, 0x6e6575726f6e, 0x6e6576696e61, 0x6e657a76796b6c65, 0x6e69636f7461, 0x6e696a616b, 0x6e696b616d, 0x6e696b6479,
  0x6e696b6c, 0x6e696b746572616b, 0x6e6974726f, 0x6e6f636c6568, 0x6e6f686176696365, 0x6e6f6d696e616365, 0x6e6f7261, 0x6e6f72656b,
  0x6e6f736974656c, 0x6e6f736e6f7374, 0x6e6f757a65, 0x6e6f76696e79, 0x6e6f766f7461, 0x6e6f7a647261, 0x6e756461, 0x6e75646c65,
  0x6e75676574, 0x6e75746974, 0x6e75746e6f7374, 0x6e7574726965, 0x6e796d6661, 0x6f62616c, 0x6f626172766974, 0x6f62617661,
  0x6f62646976, 0x6f626563, 0x6f6265686e6174, 0x6f62656a6d6f7574, 0x6f62657a697461, 0x6f6268616a6f6261, 0x6f62696c6e696365, 0x6f626a61736e6974,
  0x6f626a656b74, 0x6f626b6c6f706974, 0x6f626c617374, 0x6f626c656b, 0x6f626c696261, 0x6f626c6f6861, 0x6f626c756461, 0x6f626e6f73,
  0x6f626f6861746974, 0x6f626f6a656b, 0x6f626f7574, 0x6f6272617a6563, 0x6f62726e61, 0x6f6272756261, 0x6f62727973, 0x6f62736168]
private def cs8 : List Nat := [
  0x6f62736c756861, 0x6f62737461726174, 0x6f627576, 0x6f6276617a, 0x6f6276696e6974, 0x6f62766f64, 0x6f6276796b6c65, 0x6f6279766174656c,
  0x6f627a6f72, 0x6f636173, 0x6f63656c, 0x6f63656e6974, 0x6f63686c61646974, 0x6f63686f7461, 0x6f636872616e61, 0x6f6369746e6f7574,
  0x6f64626f6a, 0x6f64627974, 0x6f6463686f64, 0x6f6463697a6974, 0x6f646562726174, 0x6f6465736c6174, 0x6f6465767a646174, 0x6f64657a7661,
  0x6f646861646365, 0x6f64686f646974, 0x6f646a6574, 0x6f646a696e7564, 0x6f646b617a, 0x6f646b6f75706974, 0x6f646c6976, 0x6f646c756b61,
  0x6f646d6c6b61, 0x6f646f6c6e6f7374, 0x6f64706164, 0x6f64706973, 0x6f64706c6f7574, 0x6f64706f72, 0x6f64707573746974, 0x6f6470796b6174,
  0x6f6472617a6b61, 0x6f64736f75646974, 0x6f6473747570, 0x6f6473756e, 0x6f64746f6b, 0x6f64747564, 0x6f6476616861, 0x6f6476657461,
  0x6f64766f6c6174, 0x6f64767261636574, 0x6f647a6e616b, 0x6f66696e61, 0x6f6673616a64, 0x6f686c6173, 0x6f686e69736b6f, 0x6f6872616461,
  0x6f68726f7a6974, 0x6f6872797a656b, 0x6f6b6170, 0x6f6b656e696365, 0x6f6b6c696b61, 0x6f6b6e6f, 0x6f6b6f757a6c6974, 0x6f6b6f7679,
  0x6f6b72617361, 0x6f6b726573, 0x6f6b7273656b, 0x6f6b727568, 0x6f6b7570616e74, 0x6f6b75726b61, 0x6f6b75736974, 0x6f6c656a6e696e61,
  0x6f6c697a6f766174, 0x6f6d616b, 0x6f6d656c657461, 0x6f6d657a6974, 0x6f6d6c6164696e61, 0x6f6d6c6f75766174, 0x6f6d6c757661, 0x6f6d796c,
  0x6f6e65686479, 0x6f70616b6f766174, 0x6f706173656b, 0x6f706572616365, 0x6f70696365, 0x6f70696c6f7374, 0x6f7069736f766174, 0x6f706f7261,
  0x6f706f7a696365, 0x6f707261766475, 0x6f70726f7469, 0x6f72626974616c, 0x6f72636865737472, 0x6f72676965, 0x6f726c696365, 0x6f726c6f6a,
  0x6f7274656c, 0x6f73616461, 0x6f7363686e6f7574, 0x6f73696b61, 0x6f7369766f, 0x6f736c617661, 0x6f736c65706974, 0x6f736c6e6974,
  0x6f736c6f766974, 0x6f736e6f7661, 0x6f736f6261, 0x6f736f6c6974, 0x6f7370616c6563, 0x6f7374656e, 0x6f737472616861, 0x6f7374756461,
  0x6f7374796368, 0x6f73766f6a6974, 0x6f7465706c6974, 0x6f7469736b, 0x6f746f70, 0x6f7472686174, 0x6f74726c6f7374, 0x6f74726f6b,
  0x6f7472756279, 0x6f74766f72, 0x6f76616e6f7574, 0x6f766172, 0x6f766573, 0x6f766c69766e6974, 0x6f766f6365, 0x6f786964]
private def cs9 : List Nat := [
  0x6f7a646f6261, 0x706163686174656c, 0x70616369656e74, 0x7061646f756368, 0x7061686f72656b, 0x70616b74, 0x70616c616e6461, 0x70616c6563,
  0x70616c69766f, 0x70616c756261, 0x70616d666c6574, 0x70616d6c73656b, 0x70616e656e6b61, 0x70616e696b61, 0x70616e6e61, 0x70616e6f766174,
  0x70616e7374766f, 0x70616e746f666c65, 0x70617072696b61, 0x7061726b657461, 0x7061726f646965, 0x7061727461, 0x706172756b61, 0x706172796261,
  0x706173656b61, 0x7061736976697461, 0x70617374656c6b61, 0x706174656e74, 0x706174726f6e61, 0x7061766f756b, 0x70617a6e656874, 0x70617a6f7572656b,
  0x7065636b61, 0x70656461676f67, 0x70656a73656b, 0x70656b6c6f, 0x70656c6f746f6e, 0x70656e616c7461, 0x70656e6472656b, 0x70656e7a65,
  0x70657269736b6f70, 0x7065726f, 0x70657374726f7374, 0x70657461726461, 0x706574696365, 0x706574726f6c656a, 0x7065766e696e61, 0x70657865736f,
  0x7069616e69737461, 0x70696861, 0x70696a6176696365, 0x70696b6c65, 0x70696b6e696b, 0x70696c696e61, 0x70696c6e6f7374, 0x70696c756c6b61,
  0x70696e7a657461, 0x706970657461, 0x7069736174656c, 0x706973746f6c65, 0x70697465766e61, 0x7069766e696365, 0x7069766f766172, 0x706c6163656e7461,
  0x706c616b6174, 0x706c616d656e, 0x706c616e657461, 0x706c617374696b61, 0x706c61746974, 0x706c617669646c6f, 0x706c617a, 0x706c656368,
  0x706c656d656e6f, 0x706c656e7461, 0x706c6573, 0x706c657469766f, 0x706c6576656c, 0x706c69766174, 0x706c6e6974, 0x706c6e6f,
  0x706c6f636861, 0x706c6f64696e61, 0x706c6f6d6261, 0x706c6f7574, 0x706c756b, 0x706c796e, 0x706f6261766974, 0x706f627974,
  0x706f63686f64, 0x706f636974, 0x706f637469766563, 0x706f646174, 0x706f6463656e6974, 0x706f646570736174, 0x706f64686c6564, 0x706f6469766974,
  0x706f646b6c6164, 0x706f646d616e6974, 0x706f646e696b, 0x706f646f6261, 0x706f64706f7261, 0x706f6472617a, 0x706f647374617461, 0x706f64766f64,
  0x706f647a696d, 0x706f657a6965, 0x706f68616e6b61, 0x706f686e75746b61, 0x706f686f766f72, 0x706f68726f6d61, 0x706f687962, 0x706f696e7461,
  0x706f6a6973746b61, 0x706f6a6d6f7574, 0x706f6b617a6974, 0x706f6b6c6573, 0x706f6b6f6a, 0x706f6b726f6b, 0x706f6b757461, 0x706f6b796e,
  0x706f6c65646e65, 0x706f6c6962656b, 0x706f6c6b6e6f7574, 0x706f6c6f6861, 0x706f6c796e6f6d, 0x706f6d616c75, 0x706f6d696e6f7574, 0x706f6d6c6b61]
private def cs10 : List Nat := [
  0x706f6d6f63, 0x706f6d737461, 0x706f6d79736c6574, 0x706f6e6563686174, 0x706f6e6f726b61, 0x706f6e75726f7374, 0x706f7061646174, 0x706f70656c,
  0x706f706973656b, 0x706f706c616368, 0x706f70726f736974, 0x706f70736174, 0x706f707564, 0x706f7261646365, 0x706f726365, 0x706f726f64,
  0x706f7275636861, 0x706f727976, 0x706f7361646974, 0x706f736564, 0x706f73696c61, 0x706f736b6f6b, 0x706f736c616e6563, 0x706f736f75646974,
  0x706f73706f6c75, 0x706f7374617661, 0x706f737564656b, 0x706f737970, 0x706f746168, 0x706f746b616e, 0x706f746c65736b, 0x706f746f6d656b,
  0x706f7472617661, 0x706f74757061, 0x706f74766f7261, 0x706f756b617a, 0x706f75746f, 0x706f757a64726f, 0x706f76616861, 0x706f7669646c61,
  0x706f766c616b, 0x706f766f7a, 0x706f76726368, 0x706f7673746174, 0x706f76796b, 0x706f767a64656368, 0x706f7a64726176, 0x706f7a656d656b,
  0x706f7a6e6174656b, 0x706f7a6f72, 0x706f7a766174, 0x707261636f766174, 0x707261686f7279, 0x7072616b74696b61, 0x7072616c6573, 0x7072616f746563,
  0x707261706f72656b, 0x7072617365, 0x707261766461, 0x7072696e636970, 0x70726b6e6f, 0x70726f6275646974, 0x70726f63656e746f, 0x70726f64656a,
  0x70726f66657365, 0x70726f687261, 0x70726f6a656b74, 0x70726f6c6f6d6974, 0x70726f6d696c65, 0x70726f6e696b6174, 0x70726f706164, 0x70726f726f6b,
  0x70726f736261, 0x70726f746f6e, 0x70726f7574656b, 0x70726f76617a, 0x7072736b61766b61, 0x70727374656e, 0x707275646b6f7374, 0x70727574,
  0x707276656b, 0x7072766f686f7279, 0x7073616e6563, 0x70736f766f64, 0x707374727568, 0x7074616374766f, 0x70756265727461, 0x70756368,
  0x7075646c, 0x70756b61766563, 0x70756b6c696e61, 0x70756b726c65, 0x70756c74, 0x70756d7061, 0x70756e63, 0x707570656e,
  0x70757361, 0x707573696e6b61, 0x70757374696e61, 0x7075746f766174, 0x707574796b61, 0x707972616d696461, 0x7079736b, 0x707974656c,
  0x726163656b, 0x726163686f74, 0x72616469616365, 0x7261646e696365, 0x7261646f6e, 0x72616674, 0x7261676279, 0x72616b657461,
  0x72616b6f76696e61, 0x72616d656e6f, 0x72616d706f756368, 0x72616e6465, 0x726172616368, 0x726172697461, 0x7261736f766e61, 0x7261737472,
  0x7261746f6c657374, 0x72617a616e6365, 0x72617a69646c6f, 0x726561676f766174, 0x7265616b6365, 0x726563657074, 0x726564616b746f72, 0x7265666572656e74]
private def cs11 : List Nat := [
  0x7265666c6578, 0x72656a6e6f6b, 0x72656b6c616d61, 0x72656b6f7264, 0x72656b727574, 0x72656b746f72, 0x7265707574616365, 0x726576697a65,
  0x7265766d61, 0x7265766f6c766572, 0x72657a65727661, 0x7269736b6f766174, 0x72697a696b6f, 0x726f626f74696b61, 0x726f646f6b6d656e, 0x726f686f766b61,
  0x726f6b6c65, 0x726f6b6f6b6f, 0x726f6d616e65746f, 0x726f706f766f64, 0x726f7075636861, 0x726f72656a73, 0x726f736f6c, 0x726f73746c696e61,
  0x726f746d69737472, 0x726f746f706564, 0x726f74756e6461, 0x726f7562656e6b61, 0x726f7563686f, 0x726f7570, 0x726f757261, 0x726f76696e61,
  0x726f766e696365, 0x726f7a626f72, 0x726f7a63686f64, 0x726f7a646174, 0x726f7a657a6e6174, 0x726f7a686f646365, 0x726f7a696e6b61, 0x726f7a6a657a64,
  0x726f7a6b617a, 0x726f7a6c6f6861, 0x726f7a6d6172, 0x726f7a706164, 0x726f7a72756368, 0x726f7a736168, 0x726f7a746f6b, 0x726f7a756d,
  0x726f7a766f64, 0x72756272696b61, 0x7275636861646c6f, 0x72756b6176696365, 0x72756b6f706973, 0x72796261, 0x7279626f6c6f76, 0x727963686c6f7374,
  0x7279646c6f, 0x72797061646c6f, 0x727974696e61, 0x72797a6f7374, 0x73616469737461, 0x7361686174, 0x73616b6f, 0x73616d6563,
  0x73616d697a646174, 0x73616d6f7461, 0x73616e69746b61, 0x73617264696e6b61, 0x736173616e6b61, 0x736174656c6974, 0x73617a6261, 0x73617a656e696365,
  0x73626f72, 0x7363686f766174, 0x73656272616e6b61, 0x736563657365, 0x73656461646c6f, 0x736564696d656e74, 0x7365646c6f, 0x7365686e6174,
  0x73656a6d6f7574, 0x73656b657261, 0x73656b7461, 0x73656b756e6461, 0x73656b766f6a65, 0x73656d656e6f, 0x73656e6f, 0x736572766973,
  0x73657361646974, 0x736573686f7261, 0x7365736b6f6b, 0x7365736c6174, 0x736573747261, 0x7365737576, 0x73657379706174, 0x7365746261,
  0x736574696e61, 0x7365746b6174, 0x7365746e6f7574, 0x73657472766174, 0x7365766572, 0x73657a6e616d, 0x73686f6461, 0x7368726e6f7574,
  0x7369666f6e, 0x73696c6e696365, 0x7369726b61, 0x7369726f74656b, 0x7369727570, 0x73697475616365, 0x736b6166616e6472, 0x736b616c69736b6f,
  0x736b616e7a656e, 0x736b617574, 0x736b657074696b, 0x736b696361, 0x736b6c61646261, 0x736b6c656e696365, 0x736b6c6f, 0x736b6c757a,
  0x736b6f6261, 0x736b6f6b616e, 0x736b6f726f, 0x736b7269707461, 0x736b727a, 0x736b7570696e61, 0x736b766f7374, 0x736b76726e61]
private def cs12 : List Nat := [
  0x736c6162696b61, 0x736c616469646c6f, 0x736c616e696e61, 0x736c617374, 0x736c61766e6f7374, 0x736c65646f766174, 0x736c65706563, 0x736c657661,
  0x736c657a696e61, 0x736c6962, 0x736c696e61, 0x736c697a6e696365, 0x736c6f6e, 0x736c6f7570656b, 0x736c6f766f, 0x736c756368,
  0x736c756861, 0x736c756e6365, 0x736c75706b61, 0x736c7a61, 0x736d6172616764, 0x736d6574616e61, 0x736d696c7374766f, 0x736d6c6f757661,
  0x736d6f67, 0x736d726164, 0x736d726b, 0x736d72746b61, 0x736d7574656b, 0x736d79736c, 0x736e6164, 0x736e616861,
  0x736e6f62, 0x736f626f7461, 0x736f636861, 0x736f646f766b61, 0x736f6b6f6c, 0x736f706b61, 0x736f747661, 0x736f75626f6a,
  0x736f75636974, 0x736f75646365, 0x736f75686c6173, 0x736f756c6164, 0x736f756d72616b, 0x736f757072617661, 0x736f75736564, 0x736f75746f6b,
  0x736f757669736574, 0x7370616c6f766e61, 0x737061736974656c, 0x73706973, 0x73706c6176, 0x73706f64656b, 0x73706f6a656e6563, 0x73706f6c75,
  0x73706f6e7a6f72, 0x73706f726e6f7374, 0x73706f75737461, 0x737072636861, 0x73707573746974, 0x7372616e6461, 0x7372617a, 0x7372646365,
  0x73726e61, 0x73726e6563, 0x73726f766e6174, 0x737270656e, 0x73727374, 0x73727562, 0x7374616e696365, 0x737461726f737461,
  0x73746174696b61, 0x737461766261, 0x737465686e6f, 0x7374657a6b61, 0x73746f646f6c61, 0x73746f6c656b, 0x73746f7061, 0x73746f726e6f,
  0x73746f75706174, 0x737472616368, 0x7374726573, 0x737472686e6f7574, 0x7374726f6d, 0x737472756e61, 0x737475646e61, 0x737475706e696365,
  0x7374766f6c, 0x7374796b, 0x7375626a656b74, 0x73756274726f7079, 0x737563686172, 0x7375646f7374, 0x73756b6e6f, 0x73756e646174,
  0x73756e6f7574, 0x737572696b617461, 0x7375726f76696e61, 0x73766168, 0x7376616c7374766f, 0x7376657472, 0x737661746261, 0x7376617a656b,
  0x737669736c65, 0x73766974656b, 0x73766f626f6461, 0x73766f6469646c6f, 0x73766f726b61, 0x7376726162, 0x73796b61766b61, 0x73796b6f74,
  0x73796e656b, 0x73796e6f766563, 0x7379706174, 0x7379706b6f7374, 0x7379726f766f7374, 0x737973656c, 0x7379746f7374, 0x7461626c65746b61,
  0x746162756c65, 0x7461686f756e, 0x74616a656d6e6f, 0x74616a66756e, 0x74616a6761, 0x74616a6974, 0x74616a6e6f7374, 0x74616b74696b61]
private def cs13 : List Nat := [
  0x74616d686c65, 0x74616d706f6e, 0x74616e636f766174, 0x74616e6563, 0x74616e6b6572, 0x746170657461, 0x746176656e696e61, 0x74617a6174656c,
  0x746563686e696b61, 0x7465686479, 0x74656b7574696e61, 0x74656c65666f6e, 0x74656d6e6f7461, 0x74656e64656e6365, 0x74656e69737461, 0x74656e6f72,
  0x7465706c6f7461, 0x7465706e61, 0x746570727665, 0x74657261706965, 0x7465726d6f736b61, 0x74657874696c, 0x746963686f, 0x7469736b6f706973,
  0x746974756c656b, 0x746b61646c6563, 0x746b616e696e61, 0x746c61706b61, 0x746c65736b6174, 0x746c756b6f74, 0x746c757061, 0x746d656c,
  0x746f616c657461, 0x746f70696e6b61, 0x746f706f6c, 0x746f727a6f, 0x746f756861, 0x746f756c6563, 0x74726164696365, 0x7472616b746f72,
  0x7472616d70, 0x7472617361, 0x7472617665727a61, 0x747265666974, 0x7472657374, 0x7472657a6f72, 0x7472686176696e61, 0x7472686c696e61,
  0x74726f636875, 0x74726f6a696365, 0x74726f736b61, 0x74726f756261, 0x7472706365, 0x7472706974656c, 0x7472706b6f7374, 0x747275626563,
  0x74727563686c6974, 0x747275686c696365, 0x74727573, 0x7472766174, 0x74756479, 0x7475686e6f7574, 0x7475686f7374, 0x74756e647261,
  0x74757269737461, 0x7475726e616a, 0x74757a656d736b6f, 0x747661726f68, 0x74766f726261, 0x747672646f7374, 0x7476727a, 0x74796772,
  0x74796b6576, 0x75626f686f7374, 0x75626f7a65, 0x7562726174, 0x7562726f7573656b, 0x7562727573, 0x756279746f766e61, 0x7563686f,
  0x75637469766f7374, 0x756469766974, 0x75687261646974, 0x756a65646e6174, 0x756a6973746974, 0x756a6d6f7574, 0x756b617a6174656c, 0x756b6c69646e6974,
  0x756b6c6f6e6974, 0x756b6f74766974, 0x756b726f6a6974, 0x756c696365, 0x756c697461, 0x756c6f766974, 0x756d797661646c6f, 0x756e61766974,
  0x756e69666f726d61, 0x756e696b6e6f7574, 0x757061646e6f7574, 0x75706c61746e6974, 0x75706c796e6f7574, 0x75706f75746174, 0x75707261766974, 0x7572616e,
  0x7572617a6974, 0x757365646e6f7574, 0x7573696c6f766174, 0x75736d72746974, 0x75736e61646e6974, 0x75736e6f7574, 0x75736f75646974, 0x7573746c6174,
  0x757374726e6f7574, 0x757461686f766174, 0x75746b6174, 0x75746c756d6974, 0x75746f6e6f7574, 0x75746f70656e6563, 0x7574726f75736974, 0x7576616c6974,
  0x75766f6c6e6974, 0x75766f7a6f766b61, 0x757a647261766974, 0x757a656c, 0x757a656e696e61, 0x757a6c696e61, 0x757a6e6174, 0x7661676f6e]
private def cs14 : List Nat := [
  0x76616c636861, 0x76616c6f756e, 0x76616e61, 0x76616e64616c, 0x76616e696c6b61, 0x766172616e, 0x76617268616e79, 0x7661726f766174,
  0x7663656c6b75, 0x7663686f64, 0x76646f7661, 0x766564726f, 0x7665676574616365, 0x76656a6365, 0x76656c626c6f7564, 0x76656c65747268,
  0x76656c6974656c, 0x76656c6d6f63, 0x76656c72796261, 0x76656e6b6f76, 0x766572616e6461, 0x7665727a65, 0x766573656c6b61, 0x7665736b727a65,
  0x7665736e696365, 0x766573706f6475, 0x7665737461, 0x7665746572696e61, 0x76657665726b61, 0x76696272616365, 0x7669636872, 0x766964656f687261,
  0x766964696e61, 0x7669646c65, 0x76696c61, 0x76696e696365, 0x7669736574, 0x766974616c697461, 0x76697a65, 0x76697a69746b61,
  0x766a657a64, 0x766b6c6164, 0x766b7573, 0x766c616a6b61, 0x766c616b, 0x766c61736563, 0x766c65766f, 0x766c686b6f7374,
  0x766c6976, 0x766c6e6f766b61, 0x766c6f75706174, 0x766e75636f766174, 0x766e756b, 0x766f6461, 0x766f6469766f7374, 0x766f646f7a6e616b,
  0x766f647374766f, 0x766f6a656e736b79, 0x766f6a6e61, 0x766f6a736b6f, 0x766f6c616e74, 0x766f6c6261, 0x766f6c6974, 0x766f6c6e6f,
  0x766f736b6f766b61, 0x766f7a69646c6f, 0x766f7a6f766e61, 0x76707261766f, 0x767261626563, 0x767261636574, 0x76726168, 0x7672617461,
  0x76726261, 0x767263686f6c656b, 0x7672686174, 0x767273747661, 0x767274756c65, 0x767361646974, 0x7673746f75706974, 0x7673747570,
  0x76746970, 0x76796261766974, 0x767962726174, 0x767963686f766174, 0x7679646174, 0x7679647261, 0x7679666f746974, 0x7679686c65646174,
  0x7679686e6f7574, 0x7679686f646974, 0x7679687261646974, 0x76796875626974, 0x76796a61736e6974, 0x76796a6574, 0x76796a6d6f7574, 0x76796b6c6f706974,
  0x76796b6f6e6174, 0x76796c656b6174, 0x76796d617a6174, 0x76796d657a6974, 0x76796d697a6574, 0x76796d79736c6574, 0x76796e6563686174, 0x76796e696b6174,
  0x76796e75746974, 0x76797061646174, 0x7679706c61746974, 0x7679707261766974, 0x7679707573746974, 0x767972617a6974, 0x7679726f766e6174, 0x767972766174,
  0x7679736c6f766974, 0x7679736f6b6f, 0x7679737461766974, 0x767973756e6f7574, 0x76797379706174, 0x76797461736974, 0x76797465736174, 0x7679747261746974,
  0x767976696e6f7574, 0x7679766f6c6174, 0x7679767268656c, 0x76797a646f626974, 0x76797a6e6174, 0x767a616475, 0x767a6275646974, 0x767a63686f706974]
private def cs15 : List Nat := [
  0x767a646f72, 0x767a64756368, 0x767a647963686174, 0x767a6573747570, 0x767a686c6564656d, 0x767a6b617a, 0x767a6c796b6174, 0x767a6e696b,
  0x767a6f72656b, 0x767a706f757261, 0x767a746168, 0x767a74656b, 0x78796c6f666f6e, 0x7a6162726174, 0x7a616279646c6574, 0x7a6163686f766174,
  0x7a616461726d6f, 0x7a616475736974, 0x7a61666f756b6174, 0x7a61686c746974, 0x7a61686f646974, 0x7a616872616461, 0x7a6168796e6f7574, 0x7a616a61746563,
  0x7a616a6574, 0x7a616a6973746974, 0x7a616b6c65706174, 0x7a616b6f75706974, 0x7a616c65706974, 0x7a616d657a6974, 0x7a616d6f746174, 0x7a616d79736c6574,
  0x7a616e6563686174, 0x7a616e696b6174, 0x7a61706c61746974, 0x7a61706f6a6974, 0x7a6170736174, 0x7a6172617a6974, 0x7a61737461766974, 0x7a6173756e6f7574,
  0x7a6174616a6974, 0x7a6174656d6e6974, 0x7a61746b6e6f7574, 0x7a61756a6d6f7574, 0x7a6176616c6974, 0x7a6176656c6574, 0x7a6176696e6974, 0x7a61766f6c6174,
  0x7a617672746174, 0x7a617a766f6e6974, 0x7a6261766974, 0x7a6272757375, 0x7a6275646f766174, 0x7a627974656b, 0x7a64616c656b61, 0x7a6461726d61,
  0x7a6461746e6f7374, 0x7a6469766f, 0x7a646f626974, 0x7a64726f6a, 0x7a64766968, 0x7a64796d61646c6f, 0x7a656c656e696e61, 0x7a656d616e,
  0x7a656d696e61, 0x7a6570746174, 0x7a657a616475, 0x7a657a646f6c61, 0x7a6861746974, 0x7a686c746e6f7574, 0x7a686c75626f6b61, 0x7a686f746f766974,
  0x7a6872756261, 0x7a696d61, 0x7a696d6e696365, 0x7a6a656d6e6974, 0x7a6b6c616d6174, 0x7a6b6f756d6174, 0x7a6b7261746b61, 0x7a6b756d61766b61,
  0x7a6c61746f, 0x7a6c65686b61, 0x7a6c6f6261, 0x7a6c6f6d, 0x7a6c6f7374, 0x7a6c6f7a76796b, 0x7a6d61706f766174, 0x7a6d6172,
  0x7a6d6174656b, 0x7a6d696a65, 0x7a6d697a6574, 0x7a6d6f636e6974, 0x7a6d6f64726174, 0x7a6d727a6c696e61, 0x7a6d75746f766174, 0x7a6e616b,
  0x7a6e616c6f7374, 0x7a6e616d656e6174, 0x7a6e6f7675, 0x7a6f6272617a6974, 0x7a6f7461766974, 0x7a6f7562656b, 0x7a6f7566616c65, 0x7a706c6f646974,
  0x7a706f6d616c6974, 0x7a7072617661, 0x7a70726f73746974, 0x7a707275646b61, 0x7a70727675, 0x7a72616461, 0x7a72616e6974, 0x7a726361646c6f,
  0x7a726e69746f7374, 0x7a726e6f, 0x7a726f766e61, 0x7a727963686c6974, 0x7a727a61766f7374, 0x7a7469636861, 0x7a747261746974, 0x7a75626f76696e61,
  0x7a756272, 0x7a7665646e6f7574, 0x7a76656e6b75, 0x7a766573656c61, 0x7a766f6e, 0x7a76726174, 0x7a76756b6f766f64, 0x7a76796b]

/-- Words 2048, src/words/catalogs/mnemonic.cpp:8249-10302. -/
def cs : List Nat :=
  (cs0 ++ (cs1 ++ (cs2 ++ (cs3 ++ (cs4 ++ (cs5 ++ (cs6 ++ (cs7 ++ (cs8 ++ (cs9 ++ (cs10 ++ (cs11 ++ (cs12 ++ (cs13 ++ (cs14 ++ (cs15))))))))))))))))

end Verif.Catalog
