/-!
# The `fr` word list of src/words/catalogs/mnemonic.cpp:6194-8247 (generated by tools/gen_words.py)

Each word is the number its UTF-8 bytes spell, most significant byte first.
-/
namespace Verif.Catalog

private def fr0 : List Nat := [
  0x6162616973736572, 0x6162616e646f6e, 0x6162646971756572, 0x616265696c6c65, 0x61626f6c6972, 0x61626f72646572, 0x61626f75746972, 0x61626f796572,
  0x61627261736966, 0x6162726575766572, 0x61627269746572, 0x6162726f676572, 0x616272757074, 0x616273656e6365, 0x6162736f6c75, 0x61627375726465,
  0x616275736966, 0x6162797373616c, 0x6163616465cc816d6965, 0x6163616a6f75, 0x6163617269656e, 0x61636361626c6572, 0x6163636570746572, 0x6163636c616d6572,
  0x6163636f6c616465, 0x616363726f636865, 0x61636375736572, 0x616365726265, 0x6163686174, 0x61636865746572, 0x61636964756c6572, 0x6163696572,
  0x61636f6d707465, 0x6163717565cc81726972, 0x6163726f6e796d65, 0x616374657572, 0x6163746966, 0x61637475656c, 0x616465707465, 0x616465cc8171756174,
  0x61646865cc81736966, 0x61646a6563746966, 0x61646a75676572, 0x61646d6574747265, 0x61646d69726572, 0x61646f70746572, 0x61646f726572, 0x61646f75636972,
  0x61647265737365, 0x6164726f6974, 0x6164756c7465, 0x61647665726265, 0x6165cc81726572, 0x6165cc81726f6e6566, 0x61666661697265, 0x6166666563746572,
  0x61666669636865, 0x61666672657578, 0x61666675626c6572, 0x616761636572, 0x6167656e636572, 0x6167696c65, 0x616769746572, 0x61677261666572,
  0x61677265cc8161626c65, 0x616772756d65, 0x6169646572, 0x61696775696c6c65, 0x61696c696572, 0x61696d61626c65, 0x616973616e6365, 0x616a6f75746572,
  0x616a7573746572, 0x616c61726d6572, 0x616c6368696d6965, 0x616c65727465, 0x616c6765cc80627265, 0x616c677565, 0x616c6965cc816e6572, 0x616c696d656e74,
  0x616c6c65cc81676572, 0x616c6c69616765, 0x616c6c6f756572, 0x616c6c756d6572, 0x616c6f7572646972, 0x616c70616761, 0x616c7465737365, 0x616c7665cc816f6c65,
  0x616d6174657572, 0x616d62696775, 0x616d627265, 0x616d65cc816e61676572, 0x616d657274756d65, 0x616d69646f6e, 0x616d6972616c, 0x616d6f72636572,
  0x616d6f7572, 0x616d6f7669626c65, 0x616d706869626965, 0x616d706c657572, 0x616d7573616e74, 0x616e616c797365, 0x616e6170686f7265, 0x616e617263686965,
  0x616e61746f6d6965, 0x616e6369656e, 0x616e65cc81616e746972, 0x616e676c65, 0x616e676f69737365, 0x616e67756c657578, 0x616e696d616c, 0x616e6e65786572,
  0x616e6e6f6e6365, 0x616e6e75656c, 0x616e6f64696e, 0x616e6f6d616c6965, 0x616e6f6e796d65, 0x616e6f726d616c, 0x616e74656e6e65, 0x616e7469646f7465,
  0x616e7869657578, 0x61706169736572, 0x617065cc817269746966, 0x61706c616e6972, 0x61706f6c6f676965, 0x617070617265696c, 0x617070656c6572, 0x6170706f72746572]
private def fr1 : List Nat := [
  0x61707075796572, 0x617175617269756d, 0x61717565647563, 0x61726269747265, 0x61726275737465, 0x617264657572, 0x6172646f697365, 0x617267656e74,
  0x61726c657175696e, 0x61726d6174757265, 0x61726d656d656e74, 0x61726d6f697265, 0x61726d757265, 0x617270656e746572, 0x6172726163686572, 0x61727269766572,
  0x6172726f736572, 0x617273656e6963, 0x61727465cc817269656c, 0x61727469636c65, 0x617370656374, 0x61737068616c7465, 0x61737069726572, 0x617373617574,
  0x6173736572766972, 0x6173736965747465, 0x6173736f63696572, 0x61737375726572, 0x61737469636f74, 0x6173747265, 0x617374756365, 0x6174656c696572,
  0x61746f6d65, 0x61747269756d, 0x6174726f6365, 0x61747461717565, 0x617474656e746966, 0x61747469726572, 0x6174747261706572, 0x61756261696e65,
  0x61756265726765, 0x617564616365, 0x61756469626c65, 0x61756775726572, 0x6175726f7265, 0x6175746f6d6e65, 0x6175747275636865, 0x6176616c6572,
  0x6176616e636572, 0x61766172696365, 0x6176656e6972, 0x617665727365, 0x61766575676c65, 0x6176696174657572, 0x6176696465, 0x6176696f6e,
  0x617669736572, 0x61766f696e65, 0x61766f756572, 0x617672696c, 0x617869616c, 0x6178696f6d65, 0x6261646765, 0x6261666f756572,
  0x626167616765, 0x6261677565747465, 0x626169676e616465, 0x62616c616e636572, 0x62616c636f6e, 0x62616c65696e65, 0x62616c6973616765, 0x62616d62696e,
  0x62616e6361697265, 0x62616e64616765, 0x62616e6c69657565, 0x62616e6e6965cc807265, 0x62616e7175696572, 0x62617262696572, 0x626172696c, 0x6261726f6e,
  0x626172717565, 0x62617272616765, 0x62617373696e, 0x62617374696f6e, 0x62617461696c6c65, 0x626174656175, 0x6261747465726965, 0x6261756472696572,
  0x6261766172646572, 0x62656c65747465, 0x6265cc816c696572, 0x62656c6f7465, 0x6265cc816e65cc8166696365, 0x62657263656175, 0x626572676572, 0x6265726c696e65,
  0x6265726d756461, 0x626573616365, 0x6265736f676e65, 0x6265cc817461696c, 0x626575727265, 0x62696265726f6e, 0x62696379636c65, 0x626964756c65,
  0x62696a6f75, 0x62696c616e, 0x62696c696e677565, 0x62696c6c617264, 0x62696e61697265, 0x62696f6c6f676965, 0x62696f70736965, 0x62696f74797065,
  0x62697363756974, 0x6269736f6e, 0x626973746f757269, 0x626974756d65, 0x62697a61727265, 0x626c6166617264, 0x626c61677565, 0x626c616e63686972,
  0x626c657373616e74, 0x626c696e646572, 0x626c6f6e64, 0x626c6f71756572, 0x626c6f75736f6e, 0x626f62617264, 0x626f62696e65, 0x626f697265]
private def fr2 : List Nat := [
  0x626f69736572, 0x626f6c696465, 0x626f6e626f6e, 0x626f6e646972, 0x626f6e68657572, 0x626f6e6966696572, 0x626f6e7573, 0x626f7264757265,
  0x626f726e65, 0x626f747465, 0x626f75636c65, 0x626f75657578, 0x626f75676965, 0x626f756c6f6e, 0x626f757175696e, 0x626f75727365,
  0x626f7573736f6c65, 0x626f757469717565, 0x626f78657572, 0x6272616e636865, 0x62726173696572, 0x6272617665, 0x627265626973, 0x627265cc80636865,
  0x6272657576616765, 0x627269636f6c6572, 0x62726967616465, 0x6272696c6c616e74, 0x6272696f636865, 0x627269717565, 0x62726f6368757265, 0x62726f646572,
  0x62726f6e7a6572, 0x62726f75737365, 0x62726f79657572, 0x6272756d65, 0x62727573717565, 0x62727574616c, 0x62727579616e74, 0x627566666c65,
  0x62756973736f6e, 0x62756c6c6574696e, 0x627572656175, 0x627572696e, 0x62757374696572, 0x627574696e6572, 0x6275746f6972, 0x62757661626c65,
  0x62757665747465, 0x636162616e6f6e, 0x636162696e65, 0x6361636865747465, 0x636164656175, 0x6361647265, 0x63616665cc81696e65, 0x6361696c6c6f75,
  0x63616973736f6e, 0x63616c63756c6572, 0x63616c6570696e, 0x63616c69627265, 0x63616c6d6572, 0x63616c6f6d6e6965, 0x63616c7661697265, 0x63616d6172616465,
  0x63616d65cc817261, 0x63616d696f6e, 0x63616d7061676e65, 0x63616e616c, 0x63616e65746f6e, 0x63616e6f6e, 0x63616e74696e65, 0x63616e756c6172,
  0x63617061626c65, 0x6361706f72616c, 0x63617072696365, 0x63617073756c65, 0x636170746572, 0x63617075636865, 0x6361726162696e65, 0x636172626f6e65,
  0x6361726573736572, 0x63617269626f75, 0x6361726e616765, 0x6361726f747465, 0x63617272656175, 0x636172746f6e, 0x63617363616465, 0x636173696572,
  0x636173717565, 0x63617373757265, 0x636175736572, 0x63617574696f6e, 0x636176616c696572, 0x63617665726e65, 0x636176696172, 0x6365cc8164696c6c65,
  0x6365696e74757265, 0x6365cc816c65737465, 0x63656c6c756c65, 0x63656e6472696572, 0x63656e7375726572, 0x63656e7472616c, 0x636572636c65, 0x6365cc817265cc816272616c,
  0x636572697365, 0x6365726e6572, 0x63657276656175, 0x636573736572, 0x6368616772696e, 0x636861697365, 0x6368616c657572, 0x6368616d627265,
  0x6368616e6365, 0x6368617069747265, 0x63686172626f6e, 0x6368617373657572, 0x636861746f6e, 0x6368617573736f6e, 0x6368617669726572, 0x6368656d697365,
  0x6368656e696c6c65, 0x636865cc817175696572, 0x6368657263686572, 0x63686576616c, 0x636869656e, 0x63686966667265, 0x636869676e6f6e, 0x6368696d65cc807265]
private def fr3 : List Nat := [
  0x6368696f74, 0x63686c6f72757265, 0x63686f636f6c6174, 0x63686f69736972, 0x63686f7365, 0x63686f7565747465, 0x6368726f6d65, 0x6368757465,
  0x636967617265, 0x6369676f676e65, 0x63696d656e746572, 0x63696e65cc816d61, 0x63696e74726572, 0x63697263756c6572, 0x6369726572, 0x636972717565,
  0x63697465726e65, 0x6369746f79656e, 0x636974726f6e, 0x636976696c, 0x636c6169726f6e, 0x636c616d657572, 0x636c6171756572, 0x636c61737365,
  0x636c6176696572, 0x636c69656e74, 0x636c69676e6572, 0x636c696d6174, 0x636c6976616765, 0x636c6f636865, 0x636c6f6e616765, 0x636c6f706f727465,
  0x636f62616c74, 0x636f627261, 0x636f6361737365, 0x636f636f74696572, 0x636f646572, 0x636f646966696572, 0x636f66667265, 0x636f676e6572,
  0x636f6865cc8173696f6e, 0x636f6966666572, 0x636f696e636572, 0x636f6c65cc807265, 0x636f6c69627269, 0x636f6c6c696e65, 0x636f6c6d61746572, 0x636f6c6f6e656c,
  0x636f6d626174, 0x636f6d65cc81646965, 0x636f6d6d616e6465, 0x636f6d70616374, 0x636f6e63657274, 0x636f6e6475697265, 0x636f6e66696572, 0x636f6e67656c6572,
  0x636f6e6e6f746572, 0x636f6e736f6e6e65, 0x636f6e74616374, 0x636f6e76657865, 0x636f7061696e, 0x636f706965, 0x636f7261696c, 0x636f7262656175,
  0x636f7264616765, 0x636f726e69636865, 0x636f72707573, 0x636f7272656374, 0x636f727465cc806765, 0x636f736d69717565, 0x636f7374756d65, 0x636f746f6e,
  0x636f756465, 0x636f7570757265, 0x636f7572616765, 0x636f7574656175, 0x636f7576726972, 0x636f796f7465, 0x6372616265, 0x637261696e7465,
  0x63726176617465, 0x637261796f6e, 0x637265cc816174757265, 0x637265cc816469746572, 0x637265cc816d657578, 0x63726575736572, 0x6372657665747465, 0x637269626c6572,
  0x6372696572, 0x6372697374616c, 0x6372697465cc807265, 0x63726f697265, 0x63726f71756572, 0x63726f74616c65, 0x6372756369616c, 0x637275656c,
  0x63727970746572, 0x63756269717565, 0x637565696c6c6972, 0x6375696c6c65cc807265, 0x63756973696e65, 0x637569767265, 0x63756c6d696e6572, 0x63756c7469766572,
  0x63756d756c6572, 0x637570696465, 0x63757261746966, 0x63757273657572, 0x6379616e757265, 0x6379636c65, 0x63796c696e647265, 0x63796e69717565,
  0x646169676e6572, 0x64616d696572, 0x64616e676572, 0x64616e73657572, 0x6461757068696e, 0x6465cc81626174747265, 0x6465cc816269746572, 0x6465cc81626f72646572,
  0x6465cc81627269646572, 0x6465cc81627574616e74, 0x6465cc8163616c6572, 0x6465cc8163656d627265, 0x6465cc81636869726572, 0x6465cc816369646572, 0x6465cc81636c61726572, 0x6465cc81636f726572]
private def fr4 : List Nat := [
  0x6465cc816372697265, 0x6465cc816375706c6572, 0x6465cc8164616c65, 0x6465cc81647563746966, 0x6465cc8165737365, 0x6465cc8166656e736966, 0x6465cc8166696c6572, 0x6465cc81667261796572,
  0x6465cc816761676572, 0x6465cc81676976726572, 0x6465cc81676c75746972, 0x6465cc81677261666572, 0x6465cc816a65756e6572, 0x6465cc816c696365, 0x6465cc816c6f676572, 0x64656d616e646572,
  0x64656d6575726572, 0x6465cc816d6f6c6972, 0x6465cc816e6963686572, 0x6465cc816e6f756572, 0x64656e74656c6c65, 0x6465cc816e75646572, 0x6465cc8170617274, 0x6465cc8170656e736572,
  0x6465cc81706861736572, 0x6465cc81706c61636572, 0x6465cc81706f736572, 0x6465cc8172616e676572, 0x6465cc81726f626572, 0x6465cc81736173747265, 0x64657363656e7465, 0x6465cc8173657274,
  0x6465cc817369676e6572, 0x6465cc81736f6265cc816972, 0x64657373696e6572, 0x6465737472696572, 0x6465cc81746163686572, 0x6465cc81746573746572, 0x6465cc81746f75726572, 0x6465cc81747265737365,
  0x646576616e636572, 0x646576656e6972, 0x646576696e6572, 0x6465766f6972, 0x646961626c65, 0x6469616c6f677565, 0x6469616d616e74, 0x646963746572,
  0x6469666665cc81726572, 0x64696765cc81726572, 0x6469676974616c, 0x6469676e65, 0x64696c756572, 0x64696d616e636865, 0x64696d696e756572, 0x64696f78796465,
  0x6469726563746966, 0x64697269676572, 0x6469736375746572, 0x646973706f736572, 0x6469737369706572, 0x64697374616e6365, 0x6469766572746972, 0x64697669736572,
  0x646f63696c65, 0x646f6374657572, 0x646f676d65, 0x646f696774, 0x646f6d61696e65, 0x646f6d6963696c65, 0x646f6d70746572, 0x646f6e6174657572,
  0x646f6e6a6f6e, 0x646f6e6e6572, 0x646f70616d696e65, 0x646f72746f6972, 0x646f72757265, 0x646f73616765, 0x646f73657572, 0x646f7373696572,
  0x646f746174696f6e, 0x646f75616e696572, 0x646f75626c65, 0x646f7563657572, 0x646f75746572, 0x646f79656e, 0x647261676f6e, 0x647261706572,
  0x64726573736572, 0x64726962626c6572, 0x64726f6974757265, 0x64757065726965, 0x6475706c657865, 0x64757261626c65, 0x647572636972, 0x64796e6173746965,
  0x65cc81626c6f756972, 0x65cc81636172746572, 0x65cc81636861727065, 0x65cc816368656c6c65, 0x65cc81636c6169726572, 0x65cc81636c69707365, 0x65cc81636c6f7265, 0x65cc81636c757365,
  0x65cc81636f6c65, 0x65cc81636f6e6f6d6965, 0x65cc81636f726365, 0x65cc81636f75746572, 0x65cc81637261736572, 0x65cc81637265cc816d6572, 0x65cc816372697661696e, 0x65cc8163726f75,
  0x65cc8163756d65, 0x65cc816375726575696c, 0x65cc81646966696572, 0x65cc81647571756572, 0x65666661636572, 0x6566666563746966, 0x65666669676965, 0x6566666f7274,
  0x6566667261796572, 0x6566667573696f6e, 0x65cc8167616c69736572, 0x65cc816761726572, 0x65cc816a6563746572, 0x65cc816c61626f726572, 0x65cc816c6172676972, 0x65cc816c656374726f6e]
private def fr5 : List Nat := [
  0x65cc816c65cc8167616e74, 0x65cc816c65cc817068616e74, 0x65cc816c65cc807665, 0x65cc816c696769626c65, 0x65cc816c697469736d65, 0x65cc816c6f6765, 0x65cc816c756369646572, 0x65cc816c75646572,
  0x656d62616c6c6572, 0x656d62656c6c6972, 0x656d6272796f6e, 0x65cc816d657261756465, 0x65cc816d697373696f6e, 0x656d6d656e6572, 0x65cc816d6f74696f6e, 0x65cc816d6f75766f6972,
  0x656d706572657572, 0x656d706c6f796572, 0x656d706f72746572, 0x656d7072697365, 0x65cc816d756c73696f6e, 0x656e636164726572, 0x656e636865cc807265, 0x656e636c617665,
  0x656e636f636865, 0x656e646967756572, 0x656e646f73736572, 0x656e64726f6974, 0x656e6475697265, 0x65cc816e6572676965, 0x656e66616e6365, 0x656e6665726d6572,
  0x656e666f756972, 0x656e6761676572, 0x656e67696e, 0x656e676c6f626572, 0x65cc816e69676d65, 0x656e6a616d626572, 0x656e6a6575, 0x656e6c65766572,
  0x656e6e656d69, 0x656e6e7579657578, 0x656e726963686972, 0x656e726f62616765, 0x656e736569676e65, 0x656e746173736572, 0x656e74656e647265, 0x656e74696572,
  0x656e746f75726572, 0x656e747261766572, 0x65cc816e756d65cc81726572, 0x656e7661686972, 0x656e766961626c65, 0x656e766f796572, 0x656e7a796d65, 0x65cc816f6c69656e,
  0x65cc8170616973736972, 0x65cc81706172676e65, 0x65cc81706174616e74, 0x65cc817061756c65, 0x65cc8170696365726965, 0x65cc8170696465cc816d6965, 0x65cc8170696572, 0x65cc8170696c6f677565,
  0x65cc8170696e65, 0x65cc817069736f6465, 0x65cc8170697461706865, 0x65cc81706f717565, 0x65cc81707265757665, 0x65cc8170726f75766572, 0x65cc8170756973616e74, 0x65cc81717565727265,
  0x65cc817175697065, 0x65cc817269676572, 0x65cc81726f73696f6e, 0x657272657572, 0x65cc8172757074696f6e, 0x657363616c696572, 0x65737061646f6e, 0x65737065cc806365,
  0x6573706965cc80676c65, 0x6573706f6972, 0x657370726974, 0x6573717569766572, 0x65737361796572, 0x657373656e6365, 0x657373696575, 0x6573736f726572,
  0x657374696d65, 0x6573746f6d6163, 0x65737472616465, 0x65cc8174616765cc807265, 0x65cc8174616c6572, 0x65cc8174616e636865, 0x65cc8174617469717565, 0x65cc817465696e647265,
  0x65cc8174656e646f6972, 0x65cc817465726e656c, 0x65cc817468616e6f6c, 0x65cc81746869717565, 0x6574686e6965, 0x65cc817469726572, 0x65cc81746f66666572, 0x65cc81746f696c65,
  0x65cc81746f6e6e616e74, 0x65cc81746f7572646972, 0x65cc817472616e6765, 0x65cc8174726f6974, 0x65cc8174756465, 0x657570686f726965, 0x65cc8176616c756572, 0x65cc81766173696f6e,
  0x65cc8176656e7461696c, 0x65cc81766964656e6365, 0x65cc817669746572, 0x65cc81766f6c75746966, 0x65cc81766f71756572, 0x6578616374, 0x6578616765cc81726572, 0x65786175636572,
  0x657863656c6c6572, 0x6578636974616e74, 0x6578636c75736966, 0x657863757365, 0x657865cc816375746572, 0x6578656d706c65, 0x65786572636572, 0x657868616c6572]
private def fr6 : List Nat := [
  0x6578686f72746572, 0x65786967656e6365, 0x6578696c6572, 0x65786973746572, 0x65786f7469717565, 0x65787065cc8164696572, 0x6578706c6f726572, 0x6578706f736572,
  0x65787072696d6572, 0x657871756973, 0x657874656e736966, 0x6578747261697265, 0x6578756c746572, 0x6661626c65, 0x666162756c657578, 0x66616365747465,
  0x666163696c65, 0x66616374757265, 0x666169626c6972, 0x66616c61697365, 0x66616d657578, 0x66616d696c6c65, 0x66617263657572, 0x66617266656c75,
  0x666172696e65, 0x6661726f75636865, 0x66617363696e6572, 0x666174616c, 0x66617469677565, 0x666175636f6e, 0x666175746966, 0x666176657572,
  0x6661766f7269, 0x6665cc816272696c65, 0x6665cc81636f6e646572, 0x6665cc816465cc81726572, 0x6665cc816c696e, 0x66656d6d65, 0x6665cc816d7572, 0x66656e646f6972,
  0x6665cc816f64616c, 0x6665726d6572, 0x6665cc81726f6365, 0x66657276657572, 0x666573746976616c, 0x666575696c6c65, 0x666575747265, 0x6665cc817672696572,
  0x66696173636f, 0x666963656c6572, 0x666963746966, 0x66696465cc806c65, 0x666967757265, 0x66696c6174757265, 0x66696c6574616765, 0x66696c6965cc807265,
  0x66696c6c65756c, 0x66696c6d6572, 0x66696c6f75, 0x66696c74726572, 0x66696e616e636572, 0x66696e6972, 0x66696f6c65, 0x6669726d65,
  0x66697373757265, 0x6669786572, 0x666c6169726572, 0x666c616d6d65, 0x666c6173717565, 0x666c617474657572, 0x666c65cc816175, 0x666c65cc80636865,
  0x666c657572, 0x666c6578696f6e, 0x666c6f636f6e, 0x666c6f7265, 0x666c756374756572, 0x666c75696465, 0x666c757669616c, 0x666f6c6965,
  0x666f6e6465726965, 0x666f6e6769626c65, 0x666f6e7461696e65, 0x666f72636572, 0x666f726765726f6e, 0x666f726d756c6572, 0x666f7274756e65, 0x666f7373696c65,
  0x666f75647265, 0x666f756765cc807265, 0x666f75696c6c6572, 0x666f756c757265, 0x666f75726d69, 0x66726167696c65, 0x667261697365, 0x6672616e63686972,
  0x66726170706572, 0x66726179657572, 0x667265cc8167617465, 0x667265696e6572, 0x6672656c6f6e, 0x667265cc816d6972, 0x667265cc816e65cc81736965, 0x667265cc807265,
  0x66726961626c65, 0x6672696374696f6e, 0x66726973736f6e, 0x667269766f6c65, 0x66726f6964, 0x66726f6d616765, 0x66726f6e74616c, 0x66726f74746572,
  0x6672756974, 0x66756769746966, 0x6675697465, 0x667572657572, 0x66757269657578, 0x667572746966, 0x667573696f6e, 0x6675747572,
  0x6761676e6572, 0x67616c61786965, 0x67616c65726965, 0x67616d6261646572, 0x676172616e746972, 0x6761726469656e, 0x6761726e6972, 0x6761727269677565]
private def fr7 : List Nat := [
  0x67617a656c6c65, 0x67617a6f6e, 0x6765cc81616e74, 0x6765cc816c6174696e65, 0x6765cc816c756c65, 0x67656e6461726d65, 0x6765cc816e65cc8172616c, 0x6765cc816e6965,
  0x67656e6f75, 0x67656e74696c, 0x6765cc816f6c6f676965, 0x6765cc816f6d65cc80747265, 0x6765cc8172616e69756d, 0x6765726d65, 0x6765737475656c, 0x676579736572,
  0x676962696572, 0x6769636c6572, 0x676972616665, 0x6769767265, 0x676c616365, 0x676c61697665, 0x676c6973736572, 0x676c6f6265,
  0x676c6f697265, 0x676c6f7269657578, 0x676f6c66657572, 0x676f6d6d65, 0x676f6e666c6572, 0x676f726765, 0x676f72696c6c65, 0x676f7564726f6e,
  0x676f7566667265, 0x676f756c6f74, 0x676f7570696c6c65, 0x676f75726d616e64, 0x676f75747465, 0x6772616475656c, 0x6772616666697469, 0x677261696e65,
  0x6772616e64, 0x6772617070696e, 0x67726174756974, 0x677261766972, 0x6772656e6174, 0x6772696666757265, 0x6772696c6c6572, 0x6772696d706572,
  0x67726f676e6572, 0x67726f6e646572, 0x67726f747465, 0x67726f757065, 0x677275676572, 0x67727574696572, 0x6772757965cc807265, 0x677565cc8170617264,
  0x6775657272696572, 0x6775696465, 0x6775696d61757665, 0x67756974617265, 0x6775737461746966, 0x67796d6e61737465, 0x6779726f73746174, 0x6861626974756465,
  0x686163686f6972, 0x68616c7465, 0x68616d656175, 0x68616e676172, 0x68616e6e65746f6e, 0x68617269636f74, 0x6861726d6f6e6965, 0x686172706f6e,
  0x686173617264, 0x6865cc816c69756d, 0x6865cc816d61746f6d65, 0x6865726265, 0x6865cc81726973736f6e, 0x6865726d696e65, 0x6865cc81726f6e, 0x6865cc817369746572,
  0x68657572657578, 0x68696265726e6572, 0x6869626f75, 0x68696c6172616e74, 0x686973746f697265, 0x6869766572, 0x686f6d617264, 0x686f6d6d616765,
  0x686f6d6f6765cc806e65, 0x686f6e6e657572, 0x686f6e6f726572, 0x686f6e74657578, 0x686f726465, 0x686f72697a6f6e, 0x686f726c6f6765, 0x686f726d6f6e65,
  0x686f727269626c65, 0x686f756c657578, 0x686f75737365, 0x6875626c6f74, 0x6875696c657578, 0x68756d61696e, 0x68756d626c65, 0x68756d696465,
  0x68756d6f7572, 0x6875726c6572, 0x687964726f6d656c, 0x6879676965cc806e65, 0x68796d6e65, 0x6879706e6f7365, 0x6964796c6c65, 0x69676e6f726572,
  0x696775616e65, 0x696c6c6963697465, 0x696c6c7573696f6e, 0x696d616765, 0x696d6269626572, 0x696d69746572, 0x696d6d656e7365, 0x696d6d6f62696c65,
  0x696d6d7561626c65, 0x696d70616374, 0x696d7065cc817269616c, 0x696d706c6f726572, 0x696d706f736572, 0x696d7072696d6572, 0x696d7075746572, 0x696e6361726e6572]
private def fr8 : List Nat := [
  0x696e63656e646965, 0x696e636964656e74, 0x696e636c696e6572, 0x696e636f6c6f7265, 0x696e6465786572, 0x696e64696365, 0x696e647563746966, 0x696e65cc81646974,
  0x696e6570746965, 0x696e6578616374, 0x696e66696e69, 0x696e666c69676572, 0x696e666f726d6572, 0x696e667573696f6e, 0x696e6765cc81726572, 0x696e68616c6572,
  0x696e6869626572, 0x696e6a6563746572, 0x696e6a757265, 0x696e6e6f63656e74, 0x696e6f63756c6572, 0x696e6f6e646572, 0x696e736372697265, 0x696e7365637465,
  0x696e7369676e65, 0x696e736f6c697465, 0x696e737069726572, 0x696e7374696e6374, 0x696e73756c746572, 0x696e74616374, 0x696e74656e7365, 0x696e74696d65,
  0x696e747269677565, 0x696e747569746966, 0x696e7574696c65, 0x696e766173696f6e, 0x696e76656e746572, 0x696e7669746572, 0x696e766f71756572, 0x69726f6e69717565,
  0x6972726164696572, 0x69727265cc81656c, 0x69727269746572, 0x69736f6c6572, 0x69766f697265, 0x69767265737365, 0x6a6167756172, 0x6a61696c6c6972,
  0x6a616d6265, 0x6a616e76696572, 0x6a617264696e, 0x6a6175676572, 0x6a61756e65, 0x6a6176656c6f74, 0x6a657461626c65, 0x6a65746f6e,
  0x6a65756469, 0x6a65756e65737365, 0x6a6f696e647265, 0x6a6f6e63686572, 0x6a6f6e676c6572, 0x6a6f75657572, 0x6a6f756973736966, 0x6a6f75726e616c,
  0x6a6f7669616c, 0x6a6f796175, 0x6a6f79657578, 0x6a7562696c6572, 0x6a7567656d656e74, 0x6a756e696f72, 0x6a75706f6e, 0x6a757269737465,
  0x6a757374696365, 0x6a7574657578, 0x6a757665cc816e696c65, 0x6b6179616b, 0x6b696d6f6e6f, 0x6b696f73717565, 0x6c6162656c, 0x6c616269616c,
  0x6c61626f75726572, 0x6c616365cc81726572, 0x6c6163746f7365, 0x6c6167756e65, 0x6c61696e65, 0x6c616973736572, 0x6c616974696572, 0x6c616d62656175,
  0x6c616d656c6c65, 0x6c616d7065, 0x6c616e63657572, 0x6c616e67616765, 0x6c616e7465726e65, 0x6c6170696e, 0x6c617267657572, 0x6c61726d65,
  0x6c617572696572, 0x6c617661626f, 0x6c61766f6972, 0x6c656374757265, 0x6c65cc8167616c, 0x6c65cc81676572, 0x6c65cc8167756d65, 0x6c657373697665,
  0x6c6574747265, 0x6c6576696572, 0x6c657869717565, 0x6c65cc817a617264, 0x6c6961737365, 0x6c696265cc81726572, 0x6c69627265, 0x6c6963656e6365,
  0x6c69636f726e65, 0x6c6965cc806765, 0x6c6965cc80767265, 0x6c69676174757265, 0x6c69676f746572, 0x6c69677565, 0x6c696d6572, 0x6c696d697465,
  0x6c696d6f6e616465, 0x6c696d70696465, 0x6c696e65cc8161697265, 0x6c696e676f74, 0x6c696f6e63656175, 0x6c697175696465, 0x6c69736965cc807265, 0x6c6973746572]
private def fr9 : List Nat := [
  0x6c69746869756d, 0x6c6974696765, 0x6c6974746f72616c, 0x6c697672657572, 0x6c6f6769717565, 0x6c6f696e7461696e, 0x6c6f69736972, 0x6c6f6d62726963,
  0x6c6f7465726965, 0x6c6f756572, 0x6c6f757264, 0x6c6f75747265, 0x6c6f757665, 0x6c6f79616c, 0x6c75626965, 0x6c7563696465,
  0x6c75637261746966, 0x6c75657572, 0x6c756775627265, 0x6c756973616e74, 0x6c756d6965cc807265, 0x6c756e61697265, 0x6c756e6469, 0x6c75726f6e,
  0x6c7574746572, 0x6c757875657578, 0x6d616368696e65, 0x6d61676173696e, 0x6d6167656e7461, 0x6d616769717565, 0x6d6169677265, 0x6d61696c6c6f6e,
  0x6d61696e7469656e, 0x6d6169726965, 0x6d6169736f6e, 0x6d616a6f726572, 0x6d616c61786572, 0x6d616c65cc8166696365, 0x6d616c68657572, 0x6d616c696365,
  0x6d616c6c65747465, 0x6d616d6d6f757468, 0x6d616e6461746572, 0x6d616e6961626c65, 0x6d616e7175616e74, 0x6d616e74656175, 0x6d616e75656c, 0x6d61726174686f6e,
  0x6d6172627265, 0x6d61726368616e64, 0x6d61726469, 0x6d61726974696d65, 0x6d61727175657572, 0x6d6172726f6e, 0x6d617274656c6572, 0x6d6173636f747465,
  0x6d6173736966, 0x6d617465cc817269656c, 0x6d61746965cc807265, 0x6d61747261717565, 0x6d617564697265, 0x6d61757373616465, 0x6d61757665, 0x6d6178696d616c,
  0x6d65cc816368616e74, 0x6d65cc81636f6e6e75, 0x6d65cc816461696c6c65, 0x6d65cc81646563696e, 0x6d65cc816469746572, 0x6d65cc8164757365, 0x6d65696c6c657572, 0x6d65cc816c616e6765,
  0x6d65cc816c6f646965, 0x6d656d627265, 0x6d65cc816d6f697265, 0x6d656e61636572, 0x6d656e6572, 0x6d656e686972, 0x6d656e736f6e6765, 0x6d656e746f72,
  0x6d65726372656469, 0x6d65cc8172697465, 0x6d65726c65, 0x6d65737361676572, 0x6d6573757265, 0x6d65cc8174616c, 0x6d65cc817465cc816f7265, 0x6d65cc8174686f6465,
  0x6d65cc8174696572, 0x6d6575626c65, 0x6d6961756c6572, 0x6d6963726f6265, 0x6d6965747465, 0x6d69676e6f6e, 0x6d6967726572, 0x6d696c696575,
  0x6d696c6c696f6e, 0x6d696d69717565, 0x6d696e6365, 0x6d696e65cc8172616c, 0x6d696e696d616c, 0x6d696e6f726572, 0x6d696e757465, 0x6d697261636c65,
  0x6d69726f69746572, 0x6d697373696c65, 0x6d69787465, 0x6d6f62696c65, 0x6d6f6465726e65, 0x6d6f656c6c657578, 0x6d6f6e6469616c, 0x6d6f6e6974657572,
  0x6d6f6e6e616965, 0x6d6f6e6f746f6e65, 0x6d6f6e73747265, 0x6d6f6e7461676e65, 0x6d6f6e756d656e74, 0x6d6f7175657572, 0x6d6f7263656175, 0x6d6f7273757265,
  0x6d6f7274696572, 0x6d6f74657572, 0x6d6f746966, 0x6d6f75636865, 0x6d6f75666c65, 0x6d6f756c696e, 0x6d6f7573736f6e, 0x6d6f75746f6e]
private def fr10 : List Nat := [
  0x6d6f7576616e74, 0x6d756c7469706c65, 0x6d756e6974696f6e, 0x6d757261696c6c65, 0x6d757265cc806e65, 0x6d75726d757265, 0x6d7573636c65, 0x6d757365cc81756d,
  0x6d7573696369656e, 0x6d75746174696f6e, 0x6d75746572, 0x6d757475656c, 0x6d797269616465, 0x6d797274696c6c65, 0x6d79737465cc807265, 0x6d79746869717565,
  0x6e6167657572, 0x6e61707065, 0x6e617271756f6973, 0x6e6172726572, 0x6e61746174696f6e, 0x6e6174696f6e, 0x6e6174757265, 0x6e61756672616765,
  0x6e61757469717565, 0x6e6176697265, 0x6e65cc8162756c657578, 0x6e6563746172, 0x6e65cc816661737465, 0x6e65cc81676174696f6e, 0x6e65cc81676c69676572, 0x6e65cc81676f63696572,
  0x6e65696765, 0x6e657276657578, 0x6e6574746f796572, 0x6e6575726f6e65, 0x6e657574726f6e, 0x6e65766575, 0x6e69636865, 0x6e69636b656c,
  0x6e697472617465, 0x6e6976656175, 0x6e6f626c65, 0x6e6f636966, 0x6e6f637475726e65, 0x6e6f697263657572, 0x6e6f697365747465, 0x6e6f6d616465,
  0x6e6f6d6272657578, 0x6e6f6d6d6572, 0x6e6f726d61746966, 0x6e6f7461626c65, 0x6e6f746966696572, 0x6e6f746f697265, 0x6e6f7572726972, 0x6e6f7576656175,
  0x6e6f766174657572, 0x6e6f76656d627265, 0x6e6f76696365, 0x6e75616765, 0x6e75616e636572, 0x6e75697265, 0x6e75697369626c65, 0x6e756d65cc81726f,
  0x6e75707469616c, 0x6e75717565, 0x6e75747269746966, 0x6f6265cc816972, 0x6f626a6563746966, 0x6f626c69676572, 0x6f6273637572, 0x6f62736572766572,
  0x6f62737461636c65, 0x6f6274656e6972, 0x6f627475726572, 0x6f63636173696f6e, 0x6f636375706572, 0x6f6365cc81616e, 0x6f63746f627265, 0x6f6374726f796572,
  0x6f637475706c6572, 0x6f63756c61697265, 0x6f64657572, 0x6f646f72616e74, 0x6f6666656e736572, 0x6f66666963696572, 0x6f6666726972, 0x6f67697665,
  0x6f6973656175, 0x6f6973696c6c6f6e, 0x6f6c666163746966, 0x6f6c6976696572, 0x6f6d6272616765, 0x6f6d6574747265, 0x6f6e637475657578, 0x6f6e64756c6572,
  0x6f6e65cc8172657578, 0x6f6e697269717565, 0x6f70616c65, 0x6f7061717565, 0x6f7065cc81726572, 0x6f70696e696f6e, 0x6f70706f7274756e, 0x6f707072696d6572,
  0x6f70746572, 0x6f707469717565, 0x6f726167657578, 0x6f72616e6765, 0x6f7262697465, 0x6f72646f6e6e6572, 0x6f7265696c6c65, 0x6f7267616e65,
  0x6f72677565696c, 0x6f726966696365, 0x6f726e656d656e74, 0x6f72717565, 0x6f72746965, 0x6f7363696c6c6572, 0x6f736d6f7365, 0x6f73736174757265,
  0x6f7461726965, 0x6f75726167616e, 0x6f7572736f6e, 0x6f7574696c, 0x6f75747261676572, 0x6f757672616765, 0x6f766174696f6e, 0x6f78796465]
private def fr11 : List Nat := [
  0x6f78796765cc806e65, 0x6f7a6f6e65, 0x7061697369626c65, 0x70616c616365, 0x70616c6d617265cc8073, 0x70616c6f75726465, 0x70616c706572, 0x70616e61636865,
  0x70616e6461, 0x70616e676f6c696e, 0x70616e6971756572, 0x70616e6e656175, 0x70616e6f72616d61, 0x70616e74616c6f6e, 0x706170617965, 0x706170696572,
  0x7061706f746572, 0x70617079727573, 0x70617261646f7865, 0x70617263656c6c65, 0x70617265737365, 0x70617266756d6572, 0x7061726c6572, 0x7061726f6c65,
  0x7061727261696e, 0x70617273656d6572, 0x7061727461676572, 0x706172757265, 0x70617276656e6972, 0x70617373696f6e, 0x7061737465cc80717565, 0x70617465726e656c,
  0x70617469656e6365, 0x706174726f6e, 0x706176696c6c6f6e, 0x7061766f69736572, 0x7061796572, 0x70617973616765, 0x706569676e65, 0x7065696e747265,
  0x70656c616765, 0x7065cc816c6963616e, 0x70656c6c65, 0x70656c6f757365, 0x70656c75636865, 0x70656e64756c65, 0x7065cc816e65cc8174726572, 0x7065cc816e69626c65,
  0x70656e736966, 0x7065cc816e75726965, 0x7065cc8170697465, 0x7065cc81706c756d, 0x70657264726978, 0x706572666f726572, 0x7065cc8172696f6465, 0x7065726d75746572,
  0x706572706c657865, 0x70657273696c, 0x7065727465, 0x7065736572, 0x7065cc8174616c65, 0x7065746974, 0x7065cc8174726972, 0x706575706c65,
  0x70686172616f6e, 0x70686f626965, 0x70686f717565, 0x70686f746f6e, 0x706872617365, 0x7068797369717565, 0x7069616e6f, 0x706963747572616c,
  0x706965cc806365, 0x706965727265, 0x70696575767265, 0x70696c6f7465, 0x70696e63656175, 0x70697065747465, 0x706971756572, 0x7069726f677565,
  0x70697363696e65, 0x706973746f6e, 0x7069766f746572, 0x706978656c, 0x70697a7a61, 0x706c6163617264, 0x706c61666f6e64, 0x706c6169736972,
  0x706c616e6572, 0x706c61717565, 0x706c617374726f6e, 0x706c6174656175, 0x706c6575726572, 0x706c65787573, 0x706c69616765, 0x706c6f6d62,
  0x706c6f6e676572, 0x706c756965, 0x706c756d616765, 0x706f636865747465, 0x706f65cc81736965, 0x706f65cc807465, 0x706f696e7465, 0x706f6972696572,
  0x706f6973736f6e, 0x706f69767265, 0x706f6c61697265, 0x706f6c6963696572, 0x706f6c6c656e, 0x706f6c79676f6e65, 0x706f6d6d616465, 0x706f6d70696572,
  0x706f6e637475656c, 0x706f6e6465cc81726572, 0x706f6e6579, 0x706f727469717565, 0x706f736974696f6e, 0x706f737365cc81646572, 0x706f7374757265, 0x706f7461676572,
  0x706f74656175, 0x706f74696f6e, 0x706f756365, 0x706f756c61696e, 0x706f756d6f6e, 0x706f7572707265, 0x706f757373696e, 0x706f75766f6972]
private def fr12 : List Nat := [
  0x70726169726965, 0x7072617469717565, 0x707265cc816369657578, 0x707265cc8164697265, 0x707265cc8166697865, 0x707265cc816c756465, 0x707265cc816e6f6d, 0x707265cc8173656e6365,
  0x707265cc817465787465, 0x707265cc81766f6972, 0x7072696d69746966, 0x7072696e6365, 0x707269736f6e, 0x707269766572, 0x70726f626c65cc806d65, 0x70726f6365cc81646572,
  0x70726f64696765, 0x70726f666f6e64, 0x70726f677265cc8073, 0x70726f6965, 0x70726f6a65746572, 0x70726f6c6f677565, 0x70726f6d656e6572, 0x70726f707265,
  0x70726f737065cc807265, 0x70726f7465cc81676572, 0x70726f7565737365, 0x70726f7665726265, 0x70727564656e6365, 0x7072756e656175, 0x70737963686f7365, 0x7075626c6963,
  0x70756365726f6e, 0x707569736572, 0x70756c7065, 0x70756c736172, 0x70756e61697365, 0x70756e69746966, 0x70757069747265, 0x7075726966696572,
  0x70757a7a6c65, 0x707972616d696465, 0x717561736172, 0x71756572656c6c65, 0x7175657374696f6e, 0x71756965cc8174756465, 0x71756974746572, 0x71756f7469656e74,
  0x726163696e65, 0x7261636f6e746572, 0x72616469657578, 0x7261676f6e64696e, 0x72616964657572, 0x72616973696e, 0x72616c656e746972, 0x72616c6c6f6e6765,
  0x72616d6173736572, 0x726170696465, 0x726173616765, 0x7261746973736572, 0x72617661676572, 0x726176696e, 0x7261796f6e6e6572, 0x7265cc816163746966,
  0x7265cc8161676972, 0x7265cc81616c69736572, 0x7265cc81616e696d6572, 0x72656365766f6972, 0x7265cc816369746572, 0x7265cc81636c616d6572, 0x7265cc81636f6c746572, 0x7265637275746572,
  0x726563756c6572, 0x72656379636c6572, 0x7265cc816469676572, 0x7265646f75746572, 0x72656661697265, 0x7265cc81666c657865, 0x7265cc81666f726d6572, 0x7265667261696e,
  0x726566756765, 0x7265cc8167616c69656e, 0x7265cc8167696f6e, 0x7265cc81676c616765, 0x7265cc8167756c696572, 0x7265cc81697465cc81726572, 0x72656a65746572, 0x72656a6f756572,
  0x72656c61746966, 0x72656c65766572, 0x72656c696566, 0x72656d6172717565, 0x72656d65cc806465, 0x72656d697365, 0x72656d6f6e746572, 0x72656d706c6972,
  0x72656d756572, 0x72656e617264, 0x72656e666f7274, 0x72656e69666c6572, 0x72656e6f6e636572, 0x72656e74726572, 0x72656e766f69, 0x7265706c696572,
  0x7265706f72746572, 0x72657072697365, 0x72657074696c65, 0x72657175696e, 0x7265cc817365727665, 0x7265cc8173696e657578, 0x7265cc81736f75647265, 0x72657370656374,
  0x726573746572, 0x7265cc8173756c746174, 0x7265cc817461626c6972, 0x726574656e6972, 0x7265cc81746963756c65, 0x7265746f6d626572, 0x7265747261636572, 0x7265cc81756e696f6e,
  0x7265cc817573736972, 0x726576616e636865, 0x72657669767265, 0x7265cc81766f6c7465, 0x7265cc8176756c736966, 0x7269636865737365, 0x726964656175, 0x7269657572]
private def fr13 : List Nat := [
  0x726967696465, 0x7269676f6c6572, 0x72696e636572, 0x7269706f73746572, 0x72697369626c65, 0x726973717565, 0x72697475656c, 0x726976616c,
  0x7269766965cc807265, 0x726f6368657578, 0x726f6d616e6365, 0x726f6d707265, 0x726f6e6365, 0x726f6e64696e, 0x726f73656175, 0x726f73696572,
  0x726f7461746966, 0x726f746f72, 0x726f74756c65, 0x726f756765, 0x726f75696c6c65, 0x726f756c656175, 0x726f7574696e65, 0x726f7961756d65,
  0x727562616e, 0x7275626973, 0x7275636865, 0x7275656c6c65, 0x72756775657578, 0x7275696e6572, 0x7275697373656175, 0x7275736572,
  0x7275737469717565, 0x727974686d65, 0x7361626c6572, 0x7361626f746572, 0x7361627265, 0x7361636f636865, 0x736166617269, 0x73616765737365,
  0x736169736972, 0x73616c616465, 0x73616c697665, 0x73616c6f6e, 0x73616c756572, 0x73616d656469, 0x73616e6374696f6e, 0x73616e676c696572,
  0x7361726361736d65, 0x73617264696e65, 0x73617475726572, 0x7361756772656e75, 0x7361756d6f6e, 0x736175746572, 0x73617576616765, 0x736176616e74,
  0x7361766f6e6e6572, 0x7363616c70656c, 0x7363616e64616c65, 0x736365cc816c65cc81726174, 0x736365cc816e6172696f, 0x73636570747265, 0x73636865cc816d61, 0x736369656e6365,
  0x7363696e646572, 0x73636f7265, 0x7363727574696e, 0x7363756c70746572, 0x7365cc81616e6365, 0x7365cc816361626c65, 0x7365cc8163686572, 0x7365636f756572,
  0x7365cc81637265cc81746572, 0x7365cc816461746966, 0x7365cc816475697265, 0x736569676e657572, 0x7365cc816a6f7572, 0x7365cc816c6563746966, 0x73656d61696e65, 0x73656d626c6572,
  0x73656d656e6365, 0x7365cc816d696e616c, 0x7365cc816e6174657572, 0x73656e7369626c65, 0x73656e74656e6365, 0x7365cc817061726572, 0x7365cc817175656e6365, 0x73657265696e,
  0x73657267656e74, 0x7365cc817269657578, 0x73657272757265, 0x7365cc8172756d, 0x73657276696365, 0x7365cc8173616d65, 0x7365cc81766972, 0x73657672616765,
  0x7365787475706c65, 0x73696465cc8172616c, 0x736965cc80636c65, 0x736965cc81676572, 0x736966666c6572, 0x7369676c65, 0x7369676e616c, 0x73696c656e6365,
  0x73696c696369756d, 0x73696d706c65, 0x73696e6365cc807265, 0x73696e6973747265, 0x736970686f6e, 0x7369726f70, 0x7369736d69717565, 0x736974756572,
  0x736b696572, 0x736f6369616c, 0x736f636c65, 0x736f6469756d, 0x736f69676e657578, 0x736f6c646174, 0x736f6c65696c, 0x736f6c6974756465,
  0x736f6c75626c65, 0x736f6d627265, 0x736f6d6d65696c, 0x736f6d6e6f6c6572, 0x736f6e6465, 0x736f6e67657572, 0x736f6e6e65747465, 0x736f6e6f7265]
private def fr14 : List Nat := [
  0x736f7263696572, 0x736f72746972, 0x736f736965, 0x736f7474697365, 0x736f756369657578, 0x736f7564757265, 0x736f7566666c65, 0x736f756c65766572,
  0x736f7570617065, 0x736f75726365, 0x736f757469726572, 0x736f7576656e6972, 0x7370616369657578, 0x7370617469616c, 0x737065cc816369616c, 0x73706865cc807265,
  0x73706972616c, 0x737461626c65, 0x73746174696f6e, 0x737465726e756d, 0x7374696d756c7573, 0x73746970756c6572, 0x737472696374, 0x7374756469657578,
  0x73747570657572, 0x7374796c69737465, 0x7375626c696d65, 0x7375627374726174, 0x73756274696c, 0x73756276656e6972, 0x7375636365cc8073, 0x7375637265,
  0x73756666697865, 0x7375676765cc81726572, 0x73756976657572, 0x73756c66617465, 0x73757065726265, 0x737570706c696572, 0x73757266616365, 0x7375726963617465,
  0x7375726d656e6572, 0x7375727072697365, 0x73757273617574, 0x737572766965, 0x73757370656374, 0x73796c6c616265, 0x73796d626f6c65, 0x73796d65cc8174726965,
  0x73796e61707365, 0x73796e74617865, 0x7379737465cc806d65, 0x7461626163, 0x7461626c696572, 0x74616374696c65, 0x7461696c6c6572, 0x74616c656e74,
  0x74616c69736d616e, 0x74616c6f6e6e6572, 0x74616d626f7572, 0x74616d69736572, 0x74616e6769626c65, 0x7461706973, 0x74617175696e6572, 0x746172646572,
  0x7461726966, 0x74617274696e65, 0x7461737365, 0x746174616d69, 0x7461746f75616765, 0x7461757065, 0x74617572656175, 0x7461786572,
  0x7465cc816d6f696e, 0x74656d706f72656c, 0x74656e61696c6c65, 0x74656e647265, 0x74656e657572, 0x74656e6972, 0x74656e73696f6e, 0x7465726d696e6572,
  0x7465726e65, 0x7465727269626c65, 0x7465cc8174696e65, 0x7465787465, 0x746865cc806d65, 0x746865cc816f726965, 0x746865cc817261706965, 0x74686f726178,
  0x7469626961, 0x746965cc806465, 0x74696d696465, 0x746972656c697265, 0x7469726f6972, 0x7469737375, 0x746974616e65, 0x7469747265,
  0x74697475626572, 0x746f626f6767616e, 0x746f6c65cc8172616e74, 0x746f6d617465, 0x746f6e69717565, 0x746f6e6e656175, 0x746f706f6e796d65, 0x746f72636865,
  0x746f72647265, 0x746f726e616465, 0x746f7270696c6c65, 0x746f7272656e74, 0x746f727365, 0x746f72747565, 0x746f74656d, 0x746f7563686572,
  0x746f75726e616765, 0x746f7573736572, 0x746f78696e65, 0x7472616374696f6e, 0x747261666963, 0x7472616769717565, 0x747261686972, 0x747261696e,
  0x7472616e63686572, 0x7472617661696c, 0x747265cc80666c65, 0x7472656d706572, 0x747265cc81736f72, 0x74726575696c, 0x747269616765, 0x74726962756e616c]
private def fr15 : List Nat := [
  0x747269636f746572, 0x7472696c6f676965, 0x7472696f6d706865, 0x747269706c6572, 0x7472697475726572, 0x7472697669616c, 0x74726f6d626f6e65, 0x74726f6e63,
  0x74726f706963616c, 0x74726f7570656175, 0x7475696c65, 0x74756c697065, 0x74756d756c7465, 0x74756e6e656c, 0x74757262696e65, 0x747574657572,
  0x7475746f796572, 0x7475796175, 0x74796d70616e, 0x747970686f6e, 0x74797069717565, 0x747972616e, 0x7562756573717565, 0x756c74696d65,
  0x756c747261736f6e, 0x756e616e696d65, 0x756e6966696572, 0x756e696f6e, 0x756e69717565, 0x756e697461697265, 0x756e6976657273, 0x7572616e69756d,
  0x75726261696e, 0x7572746963616e74, 0x7573616765, 0x7573696e65, 0x757375656c, 0x7573757265, 0x7574696c65, 0x75746f706965,
  0x76616361726d65, 0x76616363696e, 0x76616761626f6e64, 0x7661677565, 0x7661696c6c616e74, 0x7661696e637265, 0x7661697373656175, 0x76616c61626c65,
  0x76616c697365, 0x76616c6c6f6e, 0x76616c7665, 0x76616d70697265, 0x76616e696c6c65, 0x766170657572, 0x766172696572, 0x766173657578,
  0x76617373616c, 0x7661737465, 0x76656374657572, 0x76656465747465, 0x7665cc816765cc8174616c, 0x7665cc81686963756c65, 0x7665696e617264, 0x7665cc816c6f6365,
  0x76656e6472656469, 0x7665cc816e65cc81726572, 0x76656e676572, 0x76656e696d657578, 0x76656e746f757365, 0x76657264757265, 0x7665cc8172696e, 0x7665726e6972,
  0x766572726f75, 0x766572736572, 0x7665727475, 0x766573746f6e, 0x7665cc817465cc8172616e, 0x7665cc817475737465, 0x766578616e74, 0x7665786572,
  0x766961647563, 0x7669616e6465, 0x766963746f697265, 0x766964616e6765, 0x76696465cc816f, 0x7669676e65747465, 0x76696775657572, 0x76696c61696e,
  0x76696c6c616765, 0x76696e6169677265, 0x76696f6c6f6e, 0x76697065cc807265, 0x766972656d656e74, 0x76697274756f7365, 0x7669727573, 0x766973616765,
  0x766973657572, 0x766973696f6e, 0x7669737175657578, 0x76697375656c, 0x766974616c, 0x76697465737365, 0x76697469636f6c65, 0x76697472696e65,
  0x766976616365, 0x7669766970617265, 0x766f636174696f6e, 0x766f67756572, 0x766f696c65, 0x766f6973696e, 0x766f6974757265, 0x766f6c61696c6c65,
  0x766f6c63616e, 0x766f6c7469676572, 0x766f6c756d65, 0x766f72616365, 0x766f72746578, 0x766f746572, 0x766f756c6f6972, 0x766f79616765,
  0x766f79656c6c65, 0x7761676f6e, 0x7865cc816e6f6e, 0x7961636874, 0x7a65cc80627265, 0x7a65cc816e697468, 0x7a65737465, 0x7a6f6f6c6f676965]

/-- Words 2048, src/words/catalogs/mnemonic.cpp:6194-8247. -/
def fr : List Nat :=
  (fr0 ++ (fr1 ++ (fr2 ++ (fr3 ++ (fr4 ++ (fr5 ++ (fr6 ++ (fr7 ++ (fr8 ++ (fr9 ++ (fr10 ++ (fr11 ++ (fr12 ++ (fr13 ++ (fr14 ++ (fr15))))))))))))))))

end Verif.Catalog
