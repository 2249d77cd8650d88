/-!
# The `en` word list of src/words/catalogs/electrum_v1.cpp:27-1658 (generated by tools/gen_words.py)

Each word is the number its UTF-8 bytes spell, most significant byte first.
-/
namespace Verif.Catalog

private def v1En0 : List Nat := [
  0x6c696b65, 0x6a757374, 0x6c6f7665, 0x6b6e6f77, 0x6e65766572, 0x77616e74, 0x74696d65, 0x6f7574,
  0x7468657265, 0x6d616b65, 0x6c6f6f6b, 0x657965, 0x646f776e, 0x6f6e6c79, 0x7468696e6b, 0x6865617274,
  0x6261636b, 0x7468656e, 0x696e746f, 0x61626f7574, 0x6d6f7265, 0x61776179, 0x7374696c6c, 0x7468656d,
  0x74616b65, 0x7468696e67, 0x6576656e, 0x7468726f756768, 0x6c6f6e67, 0x616c77617973, 0x776f726c64, 0x746f6f,
  0x667269656e64, 0x74656c6c, 0x747279, 0x68616e64, 0x74686f75676874, 0x6f766572, 0x68657265, 0x6f74686572,
  0x6e656564, 0x736d696c65, 0x616761696e, 0x6d756368, 0x637279, 0x6265656e, 0x6e69676874, 0x65766572,
  0x6c6974746c65, 0x73616964, 0x656e64, 0x736f6d65, 0x74686f7365, 0x61726f756e64, 0x6d696e64, 0x70656f706c65,
  0x6769726c, 0x6c65617665, 0x647265616d, 0x6c656674, 0x7475726e, 0x6d7973656c66, 0x67697665, 0x6e6f7468696e67,
  0x7265616c6c79, 0x6f6666, 0x6265666f7265, 0x736f6d657468696e67, 0x66696e64, 0x77616c6b, 0x77697368, 0x676f6f64,
  0x6f6e6365, 0x706c616365, 0x61736b, 0x73746f70, 0x6b656570, 0x7761746368, 0x7365656d, 0x65766572797468696e67,
  0x77616974, 0x676f74, 0x796574, 0x6d616465, 0x72656d656d626572, 0x7374617274, 0x616c6f6e65, 0x72756e,
  0x686f7065, 0x6d61796265, 0x62656c69657665, 0x626f6479, 0x68617465, 0x6166746572, 0x636c6f7365, 0x74616c6b,
  0x7374616e64, 0x6f776e, 0x65616368, 0x68757274, 0x68656c70, 0x686f6d65, 0x676f64, 0x736f756c,
  0x6e6577, 0x6d616e79, 0x74776f, 0x696e73696465, 0x73686f756c64, 0x74727565, 0x6669727374, 0x66656172,
  0x6d65616e, 0x626574746572, 0x706c6179, 0x616e6f74686572, 0x676f6e65, 0x6368616e6765, 0x757365, 0x776f6e646572,
  0x736f6d656f6e65, 0x68616972, 0x636f6c64, 0x6f70656e, 0x62657374, 0x616e79, 0x626568696e64, 0x68617070656e]
private def v1En1 : List Nat := [
  0x7761746572, 0x6461726b, 0x6c61756768, 0x73746179, 0x666f7265766572, 0x6e616d65, 0x776f726b, 0x73686f77,
  0x736b79, 0x627265616b, 0x63616d65, 0x64656570, 0x646f6f72, 0x707574, 0x626c61636b, 0x746f676574686572,
  0x75706f6e, 0x6861707079, 0x73756368, 0x6772656174, 0x7768697465, 0x6d6174746572, 0x66696c6c, 0x70617374,
  0x706c65617365, 0x6275726e, 0x6361757365, 0x656e6f756768, 0x746f756368, 0x6d6f6d656e74, 0x736f6f6e, 0x766f696365,
  0x73637265616d, 0x616e797468696e67, 0x7374617265, 0x736f756e64, 0x726564, 0x65766572796f6e65, 0x68696465, 0x6b697373,
  0x7472757468, 0x6465617468, 0x62656175746966756c, 0x6d696e65, 0x626c6f6f64, 0x62726f6b656e, 0x76657279, 0x70617373,
  0x6e657874, 0x666f72676574, 0x74726565, 0x77726f6e67, 0x616972, 0x6d6f74686572, 0x756e6465727374616e64, 0x6c6970,
  0x686974, 0x77616c6c, 0x6d656d6f7279, 0x736c656570, 0x66726565, 0x68696768, 0x7265616c697a65, 0x7363686f6f6c,
  0x6d69676874, 0x736b696e, 0x7377656574, 0x70657266656374, 0x626c7565, 0x6b696c6c, 0x627265617468, 0x64616e6365,
  0x616761696e7374, 0x666c79, 0x6265747765656e, 0x67726f77, 0x7374726f6e67, 0x756e646572, 0x6c697374656e, 0x6272696e67,
  0x736f6d6574696d6573, 0x737065616b, 0x70756c6c, 0x706572736f6e, 0x6265636f6d65, 0x66616d696c79, 0x626567696e, 0x67726f756e64,
  0x7265616c, 0x736d616c6c, 0x666174686572, 0x73757265, 0x66656574, 0x72657374, 0x796f756e67, 0x66696e616c6c79,
  0x6c616e64, 0x6163726f7373, 0x746f646179, 0x646966666572656e74, 0x677579, 0x6c696e65, 0x66697265, 0x726561736f6e,
  0x7265616368, 0x7365636f6e64, 0x736c6f776c79, 0x7772697465, 0x656174, 0x736d656c6c, 0x6d6f757468, 0x73746570,
  0x6c6561726e, 0x7468726565, 0x666c6f6f72, 0x70726f6d697365, 0x62726561746865, 0x6461726b6e657373, 0x70757368, 0x6561727468,
  0x6775657373, 0x73617665, 0x736f6e67, 0x61626f7665, 0x616c6f6e67, 0x626f7468, 0x636f6c6f72, 0x686f757365]
private def v1En2 : List Nat := [
  0x616c6d6f7374, 0x736f727279, 0x616e796d6f7265, 0x62726f74686572, 0x6f6b6179, 0x64656172, 0x67616d65, 0x66616465,
  0x616c7265616479, 0x6170617274, 0x7761726d, 0x626561757479, 0x6865617264, 0x6e6f74696365, 0x7175657374696f6e, 0x7368696e65,
  0x626567616e, 0x7069656365, 0x77686f6c65, 0x736861646f77, 0x736563726574, 0x737472656574, 0x77697468696e, 0x66696e676572,
  0x706f696e74, 0x6d6f726e696e67, 0x77686973706572, 0x6368696c64, 0x6d6f6f6e, 0x677265656e, 0x73746f7279, 0x676c617373,
  0x6b6964, 0x73696c656e6365, 0x73696e6365, 0x736f6674, 0x796f757273656c66, 0x656d707479, 0x7368616c6c, 0x616e67656c,
  0x616e73776572, 0x62616279, 0x627269676874, 0x646164, 0x70617468, 0x776f727279, 0x686f7572, 0x64726f70,
  0x666f6c6c6f77, 0x706f776572, 0x776172, 0x68616c66, 0x666c6f77, 0x68656176656e, 0x616374, 0x6368616e6365,
  0x66616374, 0x6c65617374, 0x7469726564, 0x6368696c6472656e, 0x6e656172, 0x7175697465, 0x616672616964, 0x72697365,
  0x736561, 0x7461737465, 0x77696e646f77, 0x636f766572, 0x6e696365, 0x7472757374, 0x6c6f74, 0x736164,
  0x636f6f6c, 0x666f726365, 0x7065616365, 0x72657475726e, 0x626c696e64, 0x65617379, 0x7265616479, 0x726f6c6c,
  0x726f7365, 0x6472697665, 0x68656c64, 0x6d75736963, 0x62656e65617468, 0x68616e67, 0x6d6f6d, 0x7061696e74,
  0x656d6f74696f6e, 0x7175696574, 0x636c656172, 0x636c6f7564, 0x666577, 0x707265747479, 0x62697264, 0x6f757473696465,
  0x7061706572, 0x70696374757265, 0x66726f6e74, 0x726f636b, 0x73696d706c65, 0x616e796f6e65, 0x6d65616e74, 0x7265616c697479,
  0x726f6164, 0x73656e7365, 0x7761737465, 0x626974, 0x6c656166, 0x7468616e6b, 0x68617070696e657373, 0x6d656574,
  0x6d656e, 0x736d6f6b65, 0x7472756c79, 0x646563696465, 0x73656c66, 0x616765, 0x626f6f6b, 0x666f726d,
  0x616c697665, 0x6361727279, 0x657363617065, 0x64616d6e, 0x696e7374656164, 0x61626c65, 0x696365, 0x6d696e757465]
private def v1En3 : List Nat := [
  0x7468726f77, 0x6361746368, 0x6c6567, 0x72696e67, 0x636f75727365, 0x676f6f64627965, 0x6c656164, 0x706f656d,
  0x7369636b, 0x636f726e6572, 0x646573697265, 0x6b6e6f776e, 0x70726f626c656d, 0x72656d696e64, 0x73686f756c646572, 0x737570706f7365,
  0x746f77617264, 0x77617665, 0x6472696e6b, 0x6a756d70, 0x776f6d616e, 0x70726574656e64, 0x736973746572, 0x7765656b,
  0x68756d616e, 0x6a6f79, 0x637261636b, 0x67726579, 0x70726179, 0x7375727072697365, 0x647279, 0x6b6e6565,
  0x6c657373, 0x736561726368, 0x626c656564, 0x636175676874, 0x636c65616e, 0x656d6272616365, 0x667574757265, 0x6b696e67,
  0x736f6e, 0x736f72726f77, 0x6368657374, 0x687567, 0x72656d61696e, 0x736174, 0x776f727468, 0x626c6f77,
  0x6461646479, 0x66696e616c, 0x706172656e74, 0x7469676874, 0x616c736f, 0x637265617465, 0x6c6f6e656c79, 0x73616665,
  0x63726f7373, 0x6472657373, 0x6576696c, 0x73696c656e74, 0x626f6e65, 0x66617465, 0x70657268617073, 0x616e676572,
  0x636c617373, 0x73636172, 0x736e6f77, 0x74696e79, 0x746f6e69676874, 0x636f6e74696e7565, 0x636f6e74726f6c, 0x646f67,
  0x65646765, 0x6d6972726f72, 0x6d6f6e7468, 0x73756464656e6c79, 0x636f6d666f7274, 0x676976656e, 0x6c6f7564, 0x717569636b6c79,
  0x67617a65, 0x706c616e, 0x72757368, 0x73746f6e65, 0x746f776e, 0x626174746c65, 0x69676e6f7265, 0x737069726974,
  0x73746f6f64, 0x737475706964, 0x796f757273, 0x62726f776e, 0x6275696c64, 0x64757374, 0x686579, 0x6b657074,
  0x706179, 0x70686f6e65, 0x7477697374, 0x616c74686f756768, 0x62616c6c, 0x6265796f6e64, 0x68696464656e, 0x6e6f7365,
  0x74616b656e, 0x6661696c, 0x666c6f6174, 0x70757265, 0x736f6d65686f77, 0x77617368, 0x77726170, 0x616e677279,
  0x636865656b, 0x6372656174757265, 0x666f72676f7474656e, 0x68656174, 0x726970, 0x73696e676c65, 0x7370616365, 0x7370656369616c,
  0x7765616b, 0x7768617465766572, 0x79656c6c, 0x616e79776179, 0x626c616d65, 0x6a6f62, 0x63686f6f7365, 0x636f756e747279]
private def v1En4 : List Nat := [
  0x6375727365, 0x6472696674, 0x6563686f, 0x666967757265, 0x67726577, 0x6c61756768746572, 0x6e65636b, 0x737566666572,
  0x776f727365, 0x79656168, 0x646973617070656172, 0x666f6f74, 0x666f7277617264, 0x6b6e696665, 0x6d657373, 0x736f6d657768657265,
  0x73746f6d616368, 0x73746f726d, 0x626567, 0x69646561, 0x6c696674, 0x6f66666572, 0x627265657a65, 0x6669656c64,
  0x66697665, 0x6f6674656e, 0x73696d706c79, 0x737475636b, 0x77696e, 0x616c6c6f77, 0x636f6e66757365, 0x656e6a6f79,
  0x657863657074, 0x666c6f776572, 0x7365656b, 0x737472656e677468, 0x63616c6d, 0x6772696e, 0x67756e, 0x6865617679,
  0x68696c6c, 0x6c61726765, 0x6f6365616e, 0x73686f65, 0x73696768, 0x7374726169676874, 0x73756d6d6572, 0x746f6e677565,
  0x616363657074, 0x6372617a79, 0x6576657279646179, 0x6578697374, 0x6772617373, 0x6d697374616b65, 0x73656e74, 0x73687574,
  0x737572726f756e64, 0x7461626c65, 0x61636865, 0x627261696e, 0x64657374726f79, 0x6865616c, 0x6e6174757265, 0x73686f7574,
  0x7369676e, 0x737461696e, 0x63686f696365, 0x646f756274, 0x676c616e6365, 0x676c6f77, 0x6d6f756e7461696e, 0x717565656e,
  0x737472616e676572, 0x7468726f6174, 0x746f6d6f72726f77, 0x63697479, 0x656974686572, 0x66697368, 0x666c616d65, 0x726174686572,
  0x7368617065, 0x7370696e, 0x737072656164, 0x617368, 0x64697374616e6365, 0x66696e697368, 0x696d616765, 0x696d6167696e65,
  0x696d706f7274616e74, 0x6e6f626f6479, 0x73686174746572, 0x7761726d7468, 0x626563616d65, 0x66656564, 0x666c657368, 0x66756e6e79,
  0x6c757374, 0x7368697274, 0x74726f75626c65, 0x79656c6c6f77, 0x617474656e74696f6e, 0x62617265, 0x62697465, 0x6d6f6e6579,
  0x70726f74656374, 0x616d617a65, 0x617070656172, 0x626f726e, 0x63686f6b65, 0x636f6d706c6574656c79, 0x6461756768746572, 0x6672657368,
  0x667269656e6473686970, 0x67656e746c65, 0x70726f6261626c79, 0x736978, 0x64657365727665, 0x657870656374, 0x67726162, 0x6d6964646c65,
  0x6e696768746d617265, 0x7269766572, 0x74686f7573616e64, 0x776569676874, 0x776f727374, 0x776f756e64, 0x626172656c79, 0x626f74746c65]
private def v1En5 : List Nat := [
  0x637265616d, 0x726567726574, 0x72656c6174696f6e73686970, 0x737469636b, 0x74657374, 0x6372757368, 0x656e646c657373, 0x6661756c74,
  0x697473656c66, 0x72756c65, 0x7370696c6c, 0x617274, 0x636972636c65, 0x6a6f696e, 0x6b69636b, 0x6d61736b,
  0x6d6173746572, 0x70617373696f6e, 0x717569636b, 0x7261697365, 0x736d6f6f7468, 0x756e6c657373, 0x77616e646572, 0x61637475616c6c79,
  0x62726f6b65, 0x6368616972, 0x6465616c, 0x6661766f72697465, 0x67696674, 0x6e6f7465, 0x6e756d626572, 0x7377656174,
  0x626f78, 0x6368696c6c, 0x636c6f74686573, 0x6c616479, 0x6d61726b, 0x7061726b, 0x706f6f72, 0x7361646e657373,
  0x746965, 0x616e696d616c, 0x62656c6f6e67, 0x6272757368, 0x636f6e73756d65, 0x6461776e, 0x666f72657374, 0x696e6e6f63656e74,
  0x70656e, 0x7072696465, 0x73747265616d, 0x746869636b, 0x636c6179, 0x636f6d706c657465, 0x636f756e74, 0x64726177,
  0x6661697468, 0x7072657373, 0x73696c766572, 0x7374727567676c65, 0x73757266616365, 0x746175676874, 0x7465616368, 0x776574,
  0x626c657373, 0x6368617365, 0x636c696d62, 0x656e746572, 0x6c6574746572, 0x6d656c74, 0x6d6574616c, 0x6d6f766965,
  0x73747265746368, 0x7377696e67, 0x766973696f6e, 0x77696665, 0x626573696465, 0x6372617368, 0x666f72676f74, 0x6775696465,
  0x6861756e74, 0x6a6f6b65, 0x6b6e6f636b, 0x706c616e74, 0x706f7572, 0x70726f7665, 0x72657665616c, 0x737465616c,
  0x7374756666, 0x74726970, 0x776f6f64, 0x7772697374, 0x626f74686572, 0x626f74746f6d, 0x637261776c, 0x63726f7764,
  0x666978, 0x666f7267697665, 0x66726f776e, 0x6772616365, 0x6c6f6f7365, 0x6c75636b79, 0x7061727479, 0x72656c65617365,
  0x737572656c79, 0x73757276697665, 0x74656163686572, 0x67656e746c79, 0x67726970, 0x7370656564, 0x73756963696465, 0x74726176656c,
  0x7472656174, 0x7665696e, 0x7772697474656e, 0x63616765, 0x636861696e, 0x636f6e766572736174696f6e, 0x64617465, 0x656e656d79,
  0x686f7765766572, 0x696e746572657374, 0x6d696c6c696f6e, 0x70616765, 0x70696e6b, 0x70726f7564, 0x73776179, 0x7468656d73656c766573]
private def v1En6 : List Nat := [
  0x77696e746572, 0x636875726368, 0x637275656c, 0x637570, 0x64656d6f6e, 0x657870657269656e6365, 0x66726565646f6d, 0x70616972,
  0x706f70, 0x707572706f7365, 0x72657370656374, 0x73686f6f74, 0x736f66746c79, 0x7374617465, 0x737472616e6765, 0x626172,
  0x6269727468, 0x6375726c, 0x64697274, 0x657863757365, 0x6c6f7264, 0x6c6f76656c79, 0x6d6f6e73746572, 0x6f72646572,
  0x7061636b, 0x70616e7473, 0x706f6f6c, 0x7363656e65, 0x736576656e, 0x7368616d65, 0x736c696465, 0x75676c79,
  0x616d6f6e67, 0x626c616465, 0x626c6f6e6465, 0x636c6f736574, 0x637265656b, 0x64656e79, 0x64727567, 0x657465726e697479,
  0x6761696e, 0x6772616465, 0x68616e646c65, 0x6b6579, 0x6c696e676572, 0x70616c65, 0x70726570617265, 0x7377616c6c6f77,
  0x7377696d, 0x7472656d626c65, 0x776865656c, 0x776f6e, 0x63617374, 0x636967617265747465, 0x636c61696d, 0x636f6c6c656765,
  0x646972656374696f6e, 0x6469727479, 0x676174686572, 0x67686f7374, 0x68756e64726564, 0x6c6f7373, 0x6c756e67, 0x6f72616e6765,
  0x70726573656e74, 0x7377656172, 0x737769726c, 0x7477696365, 0x77696c64, 0x626974746572, 0x626c616e6b6574, 0x646f63746f72,
  0x65766572797768657265, 0x666c617368, 0x67726f776e, 0x6b6e6f776c65646765, 0x6e756d62, 0x7072657373757265, 0x726164696f, 0x726570656174,
  0x7275696e, 0x7370656e64, 0x756e6b6e6f776e, 0x627579, 0x636c6f636b, 0x646576696c, 0x6561726c79, 0x66616c7365,
  0x66616e74617379, 0x706f756e64, 0x70726563696f7573, 0x726566757365, 0x7368656574, 0x7465657468, 0x77656c636f6d65, 0x616464,
  0x6168656164, 0x626c6f636b, 0x62757279, 0x636172657373, 0x636f6e74656e74, 0x6465707468, 0x64657370697465, 0x64697374616e74,
  0x6d61727279, 0x707572706c65, 0x7468726577, 0x7768656e65766572, 0x626f6d62, 0x64756c6c, 0x656173696c79, 0x6772617370,
  0x686f73706974616c, 0x696e6e6f63656e6365, 0x6e6f726d616c, 0x72656365697665, 0x7265706c79, 0x7268796d65, 0x7368616465, 0x736f6d65646179,
  0x73776f7264, 0x746f65, 0x7669736974, 0x61736c656570, 0x626f75676874, 0x63656e746572, 0x636f6e7369646572, 0x666c6174]
private def v1En7 : List Nat := [
  0x6865726f, 0x686973746f7279, 0x696e6b, 0x696e73616e65, 0x6d7573636c65, 0x6d797374657279, 0x706f636b6574, 0x7265666c656374696f6e,
  0x73686f7665, 0x73696c656e746c79, 0x736d617274, 0x736f6c64696572, 0x73706f74, 0x737472657373, 0x747261696e, 0x74797065,
  0x76696577, 0x77686574686572, 0x627573, 0x656e65726779, 0x6578706c61696e, 0x686f6c79, 0x68756e676572, 0x696e6368,
  0x6d61676963, 0x6d6978, 0x6e6f697365, 0x6e6f7768657265, 0x707261796572, 0x70726573656e6365, 0x73686f636b, 0x736e6170,
  0x737069646572, 0x7374756479, 0x7468756e646572, 0x747261696c, 0x61646d6974, 0x6167726565, 0x626167, 0x62616e67,
  0x626f756e64, 0x627574746572666c79, 0x63757465, 0x65786163746c79, 0x6578706c6f6465, 0x66616d696c696172, 0x666f6c64, 0x66757274686572,
  0x706965726365, 0x7265666c656374, 0x7363656e74, 0x73656c66697368, 0x7368617270, 0x73696e6b, 0x737072696e67, 0x7374756d626c65,
  0x756e697665727365, 0x77656570, 0x776f6d656e, 0x776f6e64657266756c, 0x616374696f6e, 0x616e6369656e74, 0x617474656d7074, 0x61766f6964,
  0x6269727468646179, 0x6272616e6368, 0x63686f636f6c617465, 0x636f7265, 0x64657072657373, 0x6472756e6b, 0x657370656369616c6c79, 0x666f637573,
  0x6672756974, 0x686f6e657374, 0x6d61746368, 0x70616c6d, 0x706572666563746c79, 0x70696c6c6f77, 0x70697479, 0x706f69736f6e,
  0x726f6172, 0x7368696674, 0x736c696768746c79, 0x7468756d70, 0x747275636b, 0x74756e65, 0x7477656e7479, 0x756e61626c65,
  0x77697065, 0x77726f7465, 0x636f6174, 0x636f6e7374616e74, 0x64696e6e6572, 0x64726f7665, 0x656767, 0x657465726e616c,
  0x666c69676874, 0x666c6f6f64, 0x6672616d65, 0x667265616b, 0x67617370, 0x676c6164, 0x686f6c6c6f77, 0x6d6f74696f6e,
  0x70656572, 0x706c6173746963, 0x726f6f74, 0x73637265656e, 0x736561736f6e, 0x7374696e67, 0x737472696b65, 0x7465616d,
  0x756e6c696b65, 0x76696374696d, 0x766f6c756d65, 0x7761726e, 0x7765697264, 0x61747461636b, 0x6177616974, 0x6177616b65,
  0x6275696c74, 0x636861726d, 0x6372617665, 0x64657370616972, 0x666f75676874, 0x6772616e74, 0x6772696566, 0x686f727365]
private def v1En8 : List Nat := [
  0x6c696d6974, 0x6d657373616765, 0x726970706c65, 0x73616e697479, 0x73636174746572, 0x7365727665, 0x73706c6974, 0x737472696e67,
  0x747269636b, 0x616e6e6f79, 0x626c7572, 0x626f6174, 0x6272617665, 0x636c6561726c79, 0x636c696e67, 0x636f6e6e656374,
  0x66697374, 0x666f727468, 0x696d6167696e6174696f6e, 0x69726f6e, 0x6a6f636b, 0x6a75646765, 0x6c6573736f6e, 0x6d696c6b,
  0x6d6973657279, 0x6e61696c, 0x6e616b6564, 0x6f757273656c766573, 0x706f6574, 0x706f737369626c65, 0x7072696e63657373, 0x7361696c,
  0x73697a65, 0x736e616b65, 0x736f6369657479, 0x7374726f6b65, 0x746f7274757265, 0x746f7373, 0x7472616365, 0x77697365,
  0x626c6f6f6d, 0x62756c6c6574, 0x63656c6c, 0x636865636b, 0x636f7374, 0x6461726c696e67, 0x647572696e67, 0x666f6f7473746570,
  0x66726167696c65, 0x68616c6c776179, 0x686172646c79, 0x686f72697a6f6e, 0x696e76697369626c65, 0x6a6f75726e6579, 0x6d69646e69676874, 0x6d7564,
  0x6e6f64, 0x7061757365, 0x72656c6178, 0x736869766572, 0x73756464656e, 0x76616c7565, 0x796f757468, 0x6162757365,
  0x61646d697265, 0x626c696e6b, 0x627265617374, 0x627275697365, 0x636f6e7374616e746c79, 0x636f75706c65, 0x6372656570, 0x6375727665,
  0x646966666572656e6365, 0x64756d62, 0x656d7074696e657373, 0x676f747461, 0x686f6e6f72, 0x706c61696e, 0x706c616e6574, 0x726563616c6c,
  0x727562, 0x73686970, 0x736c616d, 0x736f6172, 0x736f6d65626f6479, 0x74696768746c79, 0x77656174686572, 0x61646f7265,
  0x617070726f616368, 0x626f6e64, 0x6272656164, 0x6275727374, 0x63616e646c65, 0x636f66666565, 0x636f7573696e, 0x6372696d65,
  0x646573657274, 0x666c7574746572, 0x66726f7a656e, 0x6772616e64, 0x6865656c, 0x68656c6c6f, 0x6c616e6775616765, 0x6c6576656c,
  0x6d6f76656d656e74, 0x706c656173757265, 0x706f77657266756c, 0x72616e646f6d, 0x72687974686d, 0x736574746c65, 0x73696c6c79, 0x736c6170,
  0x736f7274, 0x73706f6b656e, 0x737465656c, 0x746872656174656e, 0x74756d626c65, 0x7570736574, 0x6173696465, 0x61776b77617264,
  0x626565, 0x626c616e6b, 0x626f617264, 0x627574746f6e, 0x63617264, 0x6361726566756c6c79, 0x636f6d706c61696e, 0x63726170]
private def v1En9 : List Nat := [
  0x646565706c79, 0x646973636f766572, 0x64726167, 0x6472656164, 0x6566666f7274, 0x656e74697265, 0x6661697279, 0x6769616e74,
  0x676f7474656e, 0x6772656574, 0x696c6c7573696f6e, 0x6a65616e73, 0x6c656170, 0x6c6971756964, 0x6d61726368, 0x6d656e64,
  0x6e6572766f7573, 0x6e696e65, 0x7265706c616365, 0x726f7065, 0x7370696e65, 0x73746f6c65, 0x746572726f72, 0x6163636964656e74,
  0x6170706c65, 0x62616c616e6365, 0x626f6f6d, 0x6368696c64686f6f64, 0x636f6c6c656374, 0x64656d616e64, 0x64657072657373696f6e, 0x6576656e7475616c6c79,
  0x6661696e74, 0x676c617265, 0x676f616c, 0x67726f7570, 0x686f6e6579, 0x6b69746368656e, 0x6c616964, 0x6c696d62,
  0x6d616368696e65, 0x6d657265, 0x6d6f6c64, 0x6d7572646572, 0x6e65727665, 0x7061696e66756c, 0x706f65747279, 0x7072696e6365,
  0x726162626974, 0x7368656c746572, 0x73686f7265, 0x73686f776572, 0x736f6f746865, 0x7374616972, 0x737465616479, 0x73756e6c69676874,
  0x74616e676c65, 0x7465617365, 0x7472656173757265, 0x756e636c65, 0x626567756e, 0x626c697373, 0x63616e766173, 0x6368656572,
  0x636c6177, 0x636c75746368, 0x636f6d6d6974, 0x6372696d736f6e, 0x6372797374616c, 0x64656c69676874, 0x646f6c6c, 0x6578697374656e6365,
  0x65787072657373, 0x666f67, 0x666f6f7462616c6c, 0x676179, 0x676f6f7365, 0x6775617264, 0x686174726564, 0x696c6c756d696e617465,
  0x6d617373, 0x6d617468, 0x6d6f75726e, 0x72696368, 0x726f756768, 0x736b6970, 0x73746972, 0x73747564656e74,
  0x7374796c65, 0x737570706f7274, 0x74686f726e, 0x746f756768, 0x79617264, 0x796561726e, 0x796573746572646179, 0x616476696365,
  0x61707072656369617465, 0x617574756d6e, 0x62616e6b, 0x6265616d, 0x626f776c, 0x63617074757265, 0x6361727665, 0x636f6c6c61707365,
  0x636f6e667573696f6e, 0x6372656174696f6e, 0x646f7665, 0x66656174686572, 0x6769726c667269656e64, 0x676c6f7279, 0x676f7665726e6d656e74, 0x6861727368,
  0x686f70, 0x696e6e6572, 0x6c6f736572, 0x6d6f6f6e6c69676874, 0x6e65696768626f72, 0x6e656974686572, 0x7065616368, 0x706967,
  0x707261697365, 0x7363726577, 0x736869656c64, 0x7368696d6d6572, 0x736e65616b, 0x73746162, 0x7375626a656374, 0x7468726f7567686f7574]
private def v1En10 : List Nat := [
  0x7468726f776e, 0x746f776572, 0x747769726c, 0x776f77, 0x61726d79, 0x617272697665, 0x62617468726f6f6d, 0x62756d70,
  0x6365617365, 0x636f6f6b6965, 0x636f756368, 0x636f7572616765, 0x64696d, 0x6775696c74, 0x686f776c, 0x68756d,
  0x68757362616e64, 0x696e73756c74, 0x6c6564, 0x6c756e6368, 0x6d6f636b, 0x6d6f73746c79, 0x6e61747572616c, 0x6e6561726c79,
  0x6e6565646c65, 0x6e657264, 0x706561636566756c, 0x70657266656374696f6e, 0x70696c65, 0x7072696365, 0x72656d6f7665, 0x726f616d,
  0x73616e637475617279, 0x736572696f7573, 0x7368696e79, 0x73686f6f6b, 0x736f62, 0x73746f6c656e, 0x746170, 0x7661696e,
  0x766f6964, 0x77617272696f72, 0x7772696e6b6c65, 0x616666656374696f6e, 0x61706f6c6f67697a65, 0x626c6f73736f6d, 0x626f756e6365, 0x627269646765,
  0x6368656170, 0x6372756d626c65, 0x6465636973696f6e, 0x64657363656e64, 0x6465737065726174656c79, 0x646967, 0x646f74, 0x666c6970,
  0x667269676874656e, 0x686561727462656174, 0x68756765, 0x6c617a79, 0x6c69636b, 0x6f6464, 0x6f70696e696f6e, 0x70726f63657373,
  0x70757a7a6c65, 0x71756965746c79, 0x72657472656174, 0x73636f7265, 0x73656e74656e6365, 0x7365706172617465, 0x736974756174696f6e, 0x736b696c6c,
  0x736f616b, 0x737175617265, 0x7374726179, 0x7461696e74, 0x7461736b, 0x74696465, 0x756e6465726e65617468, 0x7665696c,
  0x77686973746c65, 0x616e797768657265, 0x626564726f6f6d, 0x626964, 0x626c6f6f6479, 0x62757264656e, 0x6361726566756c, 0x636f6d70617265,
  0x636f6e6365726e, 0x6375727461696e, 0x6465636179, 0x646566656174, 0x6465736372696265, 0x646f75626c65, 0x647265616d6572, 0x647269766572,
  0x6477656c6c, 0x6576656e696e67, 0x666c617265, 0x666c69636b6572, 0x6772616e646d61, 0x677569746172, 0x6861726d, 0x686f727269626c65,
  0x68756e677279, 0x696e64656564, 0x6c616365, 0x6d656c6f6479, 0x6d6f6e6b6579, 0x6e6174696f6e, 0x6f626a656374, 0x6f6276696f75736c79,
  0x7261696e626f77, 0x73616c74, 0x73637261746368, 0x73686f776e, 0x736879, 0x7374616765, 0x7374756e, 0x7468697264,
  0x7469636b6c65, 0x7573656c657373, 0x7765616b6e657373, 0x776f7273686970, 0x776f7274686c657373, 0x61667465726e6f6f6e, 0x6265617264, 0x626f79667269656e64]
private def v1En11 : List Nat := [
  0x627562626c65, 0x62757379, 0x6365727461696e, 0x6368696e, 0x636f6e6372657465, 0x6465736b, 0x6469616d6f6e64, 0x646f6f6d,
  0x647261776e, 0x647565, 0x66656c6963697479, 0x667265657a65, 0x66726f7374, 0x67617264656e, 0x676c696465, 0x6861726d6f6e79,
  0x686f706566756c6c79, 0x68756e74, 0x6a65616c6f7573, 0x6c696768746e696e67, 0x6d616d61, 0x6d65726379, 0x7065656c, 0x706879736963616c,
  0x706f736974696f6e, 0x70756c7365, 0x70756e6368, 0x71756974, 0x72616e74, 0x726573706f6e64, 0x73616c7479, 0x73616e65,
  0x73617469736679, 0x736176696f72, 0x7368656570, 0x736c657074, 0x736f6369616c, 0x73706f7274, 0x7475636b, 0x7574746572,
  0x76616c6c6579, 0x776f6c66, 0x61696d, 0x616c6173, 0x616c746572, 0x6172726f77, 0x6177616b656e, 0x62656174656e,
  0x62656c696566, 0x6272616e64, 0x6365696c696e67, 0x636865657365, 0x636c7565, 0x636f6e666964656e6365, 0x636f6e6e656374696f6e, 0x6461696c79,
  0x6469736775697365, 0x6561676572, 0x6572617365, 0x657373656e6365, 0x657665727974696d65, 0x65787072657373696f6e, 0x66616e, 0x666c6167,
  0x666c697274, 0x666f756c, 0x667572, 0x676967676c65, 0x676c6f72696f7573, 0x69676e6f72616e6365, 0x6c6177, 0x6c6966656c657373,
  0x6d656173757265, 0x6d6967687479, 0x6d757365, 0x6e6f727468, 0x6f70706f73697465, 0x7061726164697365, 0x70617469656e6365, 0x70617469656e74,
  0x70656e63696c, 0x706574616c, 0x706c617465, 0x706f6e646572, 0x706f737369626c79, 0x7072616374696365, 0x736c696365, 0x7370656c6c,
  0x73746f636b, 0x737472696665, 0x7374726970, 0x737566666f63617465, 0x73756974, 0x74656e646572, 0x746f6f6c, 0x7472616465,
  0x76656c766574, 0x7665727365, 0x7761697374, 0x7769746368, 0x61756e74, 0x62656e6368, 0x626f6c64, 0x636170,
  0x6365727461696e6c79, 0x636c69636b, 0x636f6d70616e696f6e, 0x63726561746f72, 0x64617274, 0x64656c6963617465, 0x64657465726d696e65, 0x64697368,
  0x647261676f6e, 0x6472616d61, 0x6472756d, 0x64756465, 0x6576657279626f6479, 0x6665617374, 0x666f726568656164, 0x666f726d6572,
  0x667269676874, 0x66756c6c79, 0x676173, 0x686f6f6b, 0x6875726c, 0x696e76697465, 0x6a75696365, 0x6d616e616765]
private def v1En12 : List Nat := [
  0x6d6f72616c, 0x706f7373657373, 0x726177, 0x726562656c, 0x726f79616c, 0x7363616c65, 0x7363617279, 0x7365766572616c,
  0x736c69676874, 0x73747562626f726e, 0x7377656c6c, 0x74616c656e74, 0x746561, 0x7465727269626c65, 0x746872656164, 0x746f726d656e74,
  0x747269636b6c65, 0x757375616c6c79, 0x76617374, 0x76696f6c656e6365, 0x7765617665, 0x61636964, 0x61676f6e79, 0x617368616d6564,
  0x617765, 0x62656c6c79, 0x626c656e64, 0x626c757368, 0x636861726163746572, 0x6368656174, 0x636f6d6d6f6e, 0x636f6d70616e79,
  0x636f77617264, 0x637265616b, 0x64616e676572, 0x646561646c79, 0x646566656e7365, 0x646566696e65, 0x646570656e64, 0x646573706572617465,
  0x64657374696e6174696f6e, 0x646577, 0x6475636b, 0x6475737479, 0x656d62617272617373, 0x656e67696e65, 0x6578616d706c65, 0x6578706c6f7265,
  0x666f65, 0x667265656c79, 0x667275737472617465, 0x67656e65726174696f6e, 0x676c6f7665, 0x6775696c7479, 0x6865616c7468, 0x6875727279,
  0x6964696f74, 0x696d706f737369626c65, 0x696e68616c65, 0x6a6177, 0x6b696e67646f6d, 0x6d656e74696f6e, 0x6d697374, 0x6d6f616e,
  0x6d756d626c65, 0x6d7574746572, 0x6f627365727665, 0x6f6465, 0x7061746865746963, 0x7061747465726e, 0x706965, 0x707265666572,
  0x70756666, 0x72617065, 0x72617265, 0x726576656e6765, 0x72756465, 0x736372617065, 0x73706972616c, 0x73717565657a65,
  0x73747261696e, 0x73756e736574, 0x73757370656e64, 0x73796d7061746879, 0x7468696768, 0x7468726f6e65, 0x746f74616c, 0x756e7365656e,
  0x776561706f6e, 0x7765617279]

/-- Words 1626, src/words/catalogs/electrum_v1.cpp:27-1658. -/
def v1En : List Nat :=
  (v1En0 ++ (v1En1 ++ (v1En2 ++ (v1En3 ++ (v1En4 ++ (v1En5 ++ (v1En6 ++ (v1En7 ++ (v1En8 ++ (v1En9 ++ (v1En10 ++ (v1En11 ++ (v1En12)))))))))))))

end Verif.Catalog
