/-! Generated from include/cardano/bip39_dictionary.hpp:8282-10330 (the table `french`).
Each word is written as one number: the byte 1 followed by the bytes of the word. -/

namespace Cardano.Bip39

/-- Entries 0 to 63 of `french` (include/cardano/bip39_dictionary.hpp:8282-10330): abaisser … agrafer -/
def french0 : List Nat :=
  [0x016162616973736572, 0x016162616e646f6e, 0x016162646971756572, 0x01616265696c6c65,
   0x0161626f6c6972, 0x0161626f72646572, 0x0161626f75746972, 0x0161626f796572,
   0x0161627261736966, 0x016162726575766572, 0x0161627269746572, 0x016162726f676572,
   0x01616272757074, 0x01616273656e6365, 0x016162736f6c75, 0x0161627375726465,
   0x01616275736966, 0x016162797373616c, 0x016163616465cc816d6965, 0x016163616a6f75,
   0x016163617269656e, 0x0161636361626c6572, 0x016163636570746572, 0x016163636c616d6572,
   0x016163636f6c616465, 0x01616363726f636865, 0x0161636375736572, 0x01616365726265,
   0x016163686174, 0x0161636865746572, 0x0161636964756c6572, 0x016163696572,
   0x0161636f6d707465, 0x016163717565cc81726972, 0x016163726f6e796d65, 0x01616374657572,
   0x016163746966, 0x0161637475656c, 0x01616465707465, 0x01616465cc8171756174,
   0x0161646865cc81736966, 0x0161646a6563746966, 0x0161646a75676572, 0x0161646d6574747265,
   0x0161646d69726572, 0x0161646f70746572, 0x0161646f726572, 0x0161646f75636972,
   0x0161647265737365, 0x016164726f6974, 0x016164756c7465, 0x0161647665726265,
   0x016165cc81726572, 0x016165cc81726f6e6566, 0x0161666661697265, 0x016166666563746572,
   0x0161666669636865, 0x0161666672657578, 0x0161666675626c6572, 0x01616761636572,
   0x016167656e636572, 0x016167696c65, 0x01616769746572, 0x0161677261666572]

/-- Entries 64 to 127 of `french` (include/cardano/bip39_dictionary.hpp:8282-10330): agréable … apporter -/
def french1 : List Nat :=
  [0x0161677265cc8161626c65, 0x01616772756d65, 0x016169646572, 0x0161696775696c6c65,
   0x0161696c696572, 0x0161696d61626c65, 0x01616973616e6365, 0x01616a6f75746572,
   0x01616a7573746572, 0x01616c61726d6572, 0x01616c6368696d6965, 0x01616c65727465,
   0x01616c6765cc80627265, 0x01616c677565, 0x01616c6965cc816e6572, 0x01616c696d656e74,
   0x01616c6c65cc81676572, 0x01616c6c69616765, 0x01616c6c6f756572, 0x01616c6c756d6572,
   0x01616c6f7572646972, 0x01616c70616761, 0x01616c7465737365, 0x01616c7665cc816f6c65,
   0x01616d6174657572, 0x01616d62696775, 0x01616d627265, 0x01616d65cc816e61676572,
   0x01616d657274756d65, 0x01616d69646f6e, 0x01616d6972616c, 0x01616d6f72636572,
   0x01616d6f7572, 0x01616d6f7669626c65, 0x01616d706869626965, 0x01616d706c657572,
   0x01616d7573616e74, 0x01616e616c797365, 0x01616e6170686f7265, 0x01616e617263686965,
   0x01616e61746f6d6965, 0x01616e6369656e, 0x01616e65cc81616e746972, 0x01616e676c65,
   0x01616e676f69737365, 0x01616e67756c657578, 0x01616e696d616c, 0x01616e6e65786572,
   0x01616e6e6f6e6365, 0x01616e6e75656c, 0x01616e6f64696e, 0x01616e6f6d616c6965,
   0x01616e6f6e796d65, 0x01616e6f726d616c, 0x01616e74656e6e65, 0x01616e7469646f7465,
   0x01616e7869657578, 0x0161706169736572, 0x01617065cc817269746966, 0x0161706c616e6972,
   0x0161706f6c6f676965, 0x01617070617265696c, 0x01617070656c6572, 0x016170706f72746572]

/-- Entries 128 to 191 of `french` (include/cardano/bip39_dictionary.hpp:8282-10330): appuyer … bafouer -/
def french2 : List Nat :=
  [0x0161707075796572, 0x01617175617269756d, 0x0161717565647563, 0x0161726269747265,
   0x0161726275737465, 0x01617264657572, 0x016172646f697365, 0x01617267656e74,
   0x0161726c657175696e, 0x0161726d6174757265, 0x0161726d656d656e74, 0x0161726d6f697265,
   0x0161726d757265, 0x01617270656e746572, 0x016172726163686572, 0x0161727269766572,
   0x016172726f736572, 0x01617273656e6963, 0x0161727465cc817269656c, 0x0161727469636c65,
   0x01617370656374, 0x0161737068616c7465, 0x0161737069726572, 0x01617373617574,
   0x016173736572766972, 0x016173736965747465, 0x016173736f63696572, 0x0161737375726572,
   0x0161737469636f74, 0x016173747265, 0x01617374756365, 0x016174656c696572,
   0x0161746f6d65, 0x0161747269756d, 0x016174726f6365, 0x0161747461717565,
   0x01617474656e746966, 0x0161747469726572, 0x016174747261706572, 0x0161756261696e65,
   0x0161756265726765, 0x01617564616365, 0x0161756469626c65, 0x0161756775726572,
   0x016175726f7265, 0x016175746f6d6e65, 0x016175747275636865, 0x016176616c6572,
   0x016176616e636572, 0x0161766172696365, 0x016176656e6972, 0x01617665727365,
   0x0161766575676c65, 0x016176696174657572, 0x016176696465, 0x016176696f6e,
   0x01617669736572, 0x0161766f696e65, 0x0161766f756572, 0x01617672696c,
   0x01617869616c, 0x016178696f6d65, 0x016261646765, 0x016261666f756572]

/-- Entries 192 to 255 of `french` (include/cardano/bip39_dictionary.hpp:8282-10330): bagage … boire -/
def french3 : List Nat :=
  [0x01626167616765, 0x016261677565747465, 0x01626169676e616465, 0x0162616c616e636572,
   0x0162616c636f6e, 0x0162616c65696e65, 0x0162616c6973616765, 0x0162616d62696e,
   0x0162616e6361697265, 0x0162616e64616765, 0x0162616e6c69657565, 0x0162616e6e6965cc807265,
   0x0162616e7175696572, 0x0162617262696572, 0x01626172696c, 0x016261726f6e,
   0x01626172717565, 0x0162617272616765, 0x0162617373696e, 0x0162617374696f6e,
   0x0162617461696c6c65, 0x01626174656175, 0x016261747465726965, 0x016261756472696572,
   0x016261766172646572, 0x0162656c65747465, 0x016265cc816c696572, 0x0162656c6f7465,
   0x016265cc816e65cc8166696365, 0x0162657263656175, 0x01626572676572, 0x016265726c696e65,
   0x016265726d756461, 0x01626573616365, 0x016265736f676e65, 0x016265cc817461696c,
   0x01626575727265, 0x0162696265726f6e, 0x0162696379636c65, 0x01626964756c65,
   0x0162696a6f75, 0x0162696c616e, 0x0162696c696e677565, 0x0162696c6c617264,
   0x0162696e61697265, 0x0162696f6c6f676965, 0x0162696f70736965, 0x0162696f74797065,
   0x0162697363756974, 0x016269736f6e, 0x01626973746f757269, 0x01626974756d65,
   0x0162697a61727265, 0x01626c6166617264, 0x01626c61677565, 0x01626c616e63686972,
   0x01626c657373616e74, 0x01626c696e646572, 0x01626c6f6e64, 0x01626c6f71756572,
   0x01626c6f75736f6e, 0x01626f62617264, 0x01626f62696e65, 0x01626f697265]

/-- Entries 256 to 319 of `french` (include/cardano/bip39_dictionary.hpp:8282-10330): boiser … camarade -/
def french4 : List Nat :=
  [0x01626f69736572, 0x01626f6c696465, 0x01626f6e626f6e, 0x01626f6e646972,
   0x01626f6e68657572, 0x01626f6e6966696572, 0x01626f6e7573, 0x01626f7264757265,
   0x01626f726e65, 0x01626f747465, 0x01626f75636c65, 0x01626f75657578,
   0x01626f75676965, 0x01626f756c6f6e, 0x01626f757175696e, 0x01626f75727365,
   0x01626f7573736f6c65, 0x01626f757469717565, 0x01626f78657572, 0x016272616e636865,
   0x0162726173696572, 0x016272617665, 0x01627265626973, 0x01627265cc80636865,
   0x016272657576616765, 0x01627269636f6c6572, 0x0162726967616465, 0x016272696c6c616e74,
   0x016272696f636865, 0x01627269717565, 0x0162726f6368757265, 0x0162726f646572,
   0x0162726f6e7a6572, 0x0162726f75737365, 0x0162726f79657572, 0x016272756d65,
   0x0162727573717565, 0x0162727574616c, 0x0162727579616e74, 0x01627566666c65,
   0x0162756973736f6e, 0x0162756c6c6574696e, 0x01627572656175, 0x01627572696e,
   0x0162757374696572, 0x01627574696e6572, 0x016275746f6972, 0x0162757661626c65,
   0x0162757665747465, 0x01636162616e6f6e, 0x01636162696e65, 0x016361636865747465,
   0x01636164656175, 0x016361647265, 0x0163616665cc81696e65, 0x016361696c6c6f75,
   0x0163616973736f6e, 0x0163616c63756c6572, 0x0163616c6570696e, 0x0163616c69627265,
   0x0163616c6d6572, 0x0163616c6f6d6e6965, 0x0163616c7661697265, 0x0163616d6172616465]

/-- Entries 320 to 383 of `french` (include/cardano/bip39_dictionary.hpp:8282-10330): caméra … chimère -/
def french5 : List Nat :=
  [0x0163616d65cc817261, 0x0163616d696f6e, 0x0163616d7061676e65, 0x0163616e616c,
   0x0163616e65746f6e, 0x0163616e6f6e, 0x0163616e74696e65, 0x0163616e756c6172,
   0x0163617061626c65, 0x016361706f72616c, 0x0163617072696365, 0x0163617073756c65,
   0x01636170746572, 0x0163617075636865, 0x016361726162696e65, 0x01636172626f6e65,
   0x016361726573736572, 0x0163617269626f75, 0x016361726e616765, 0x016361726f747465,
   0x0163617272656175, 0x01636172746f6e, 0x0163617363616465, 0x01636173696572,
   0x01636173717565, 0x0163617373757265, 0x01636175736572, 0x0163617574696f6e,
   0x01636176616c696572, 0x0163617665726e65, 0x01636176696172, 0x016365cc8164696c6c65,
   0x016365696e74757265, 0x016365cc816c65737465, 0x0163656c6c756c65, 0x0163656e6472696572,
   0x0163656e7375726572, 0x0163656e7472616c, 0x01636572636c65, 0x016365cc817265cc816272616c,
   0x01636572697365, 0x016365726e6572, 0x0163657276656175, 0x01636573736572,
   0x016368616772696e, 0x01636861697365, 0x016368616c657572, 0x016368616d627265,
   0x016368616e6365, 0x016368617069747265, 0x0163686172626f6e, 0x016368617373657572,
   0x01636861746f6e, 0x016368617573736f6e, 0x016368617669726572, 0x016368656d697365,
   0x016368656e696c6c65, 0x01636865cc817175696572, 0x016368657263686572, 0x0163686576616c,
   0x01636869656e, 0x0163686966667265, 0x01636869676e6f6e, 0x016368696d65cc807265]

/-- Entries 384 to 447 of `french` (include/cardano/bip39_dictionary.hpp:8282-10330): chiot … corbeau -/
def french6 : List Nat :=
  [0x016368696f74, 0x0163686c6f72757265, 0x0163686f636f6c6174, 0x0163686f69736972,
   0x0163686f7365, 0x0163686f7565747465, 0x016368726f6d65, 0x016368757465,
   0x01636967617265, 0x016369676f676e65, 0x0163696d656e746572, 0x0163696e65cc816d61,
   0x0163696e74726572, 0x0163697263756c6572, 0x016369726572, 0x01636972717565,
   0x0163697465726e65, 0x016369746f79656e, 0x01636974726f6e, 0x01636976696c,
   0x01636c6169726f6e, 0x01636c616d657572, 0x01636c6171756572, 0x01636c61737365,
   0x01636c6176696572, 0x01636c69656e74, 0x01636c69676e6572, 0x01636c696d6174,
   0x01636c6976616765, 0x01636c6f636865, 0x01636c6f6e616765, 0x01636c6f706f727465,
   0x01636f62616c74, 0x01636f627261, 0x01636f6361737365, 0x01636f636f74696572,
   0x01636f646572, 0x01636f646966696572, 0x01636f66667265, 0x01636f676e6572,
   0x01636f6865cc8173696f6e, 0x01636f6966666572, 0x01636f696e636572, 0x01636f6c65cc807265,
   0x01636f6c69627269, 0x01636f6c6c696e65, 0x01636f6c6d61746572, 0x01636f6c6f6e656c,
   0x01636f6d626174, 0x01636f6d65cc81646965, 0x01636f6d6d616e6465, 0x01636f6d70616374,
   0x01636f6e63657274, 0x01636f6e6475697265, 0x01636f6e66696572, 0x01636f6e67656c6572,
   0x01636f6e6e6f746572, 0x01636f6e736f6e6e65, 0x01636f6e74616374, 0x01636f6e76657865,
   0x01636f7061696e, 0x01636f706965, 0x01636f7261696c, 0x01636f7262656175]

/-- Entries 448 to 511 of `french` (include/cardano/bip39_dictionary.hpp:8282-10330): cordage … décorer -/
def french7 : List Nat :=
  [0x01636f7264616765, 0x01636f726e69636865, 0x01636f72707573, 0x01636f7272656374,
   0x01636f727465cc806765, 0x01636f736d69717565, 0x01636f7374756d65, 0x01636f746f6e,
   0x01636f756465, 0x01636f7570757265, 0x01636f7572616765, 0x01636f7574656175,
   0x01636f7576726972, 0x01636f796f7465, 0x016372616265, 0x01637261696e7465,
   0x0163726176617465, 0x01637261796f6e, 0x01637265cc816174757265, 0x01637265cc816469746572,
   0x01637265cc816d657578, 0x0163726575736572, 0x016372657665747465, 0x01637269626c6572,
   0x016372696572, 0x016372697374616c, 0x016372697465cc807265, 0x0163726f697265,
   0x0163726f71756572, 0x0163726f74616c65, 0x016372756369616c, 0x01637275656c,
   0x0163727970746572, 0x0163756269717565, 0x01637565696c6c6972, 0x016375696c6c65cc807265,
   0x0163756973696e65, 0x01637569767265, 0x0163756c6d696e6572, 0x0163756c7469766572,
   0x0163756d756c6572, 0x01637570696465, 0x0163757261746966, 0x0163757273657572,
   0x016379616e757265, 0x016379636c65, 0x0163796c696e647265, 0x0163796e69717565,
   0x01646169676e6572, 0x0164616d696572, 0x0164616e676572, 0x0164616e73657572,
   0x016461757068696e, 0x016465cc81626174747265, 0x016465cc816269746572, 0x016465cc81626f72646572,
   0x016465cc81627269646572, 0x016465cc81627574616e74, 0x016465cc8163616c6572, 0x016465cc8163656d627265,
   0x016465cc81636869726572, 0x016465cc816369646572, 0x016465cc81636c61726572, 0x016465cc81636f726572]

/-- Entries 512 to 575 of `french` (include/cardano/bip39_dictionary.hpp:8282-10330): décrire … diviser -/
def french8 : List Nat :=
  [0x016465cc816372697265, 0x016465cc816375706c6572, 0x016465cc8164616c65, 0x016465cc81647563746966,
   0x016465cc8165737365, 0x016465cc8166656e736966, 0x016465cc8166696c6572, 0x016465cc81667261796572,
   0x016465cc816761676572, 0x016465cc81676976726572, 0x016465cc81676c75746972, 0x016465cc81677261666572,
   0x016465cc816a65756e6572, 0x016465cc816c696365, 0x016465cc816c6f676572, 0x0164656d616e646572,
   0x0164656d6575726572, 0x016465cc816d6f6c6972, 0x016465cc816e6963686572, 0x016465cc816e6f756572,
   0x0164656e74656c6c65, 0x016465cc816e75646572, 0x016465cc8170617274, 0x016465cc8170656e736572,
   0x016465cc81706861736572, 0x016465cc81706c61636572, 0x016465cc81706f736572, 0x016465cc8172616e676572,
   0x016465cc81726f626572, 0x016465cc81736173747265, 0x0164657363656e7465, 0x016465cc8173657274,
   0x016465cc817369676e6572, 0x016465cc81736f6265cc816972, 0x0164657373696e6572, 0x016465737472696572,
   0x016465cc81746163686572, 0x016465cc81746573746572, 0x016465cc81746f75726572, 0x016465cc81747265737365,
   0x01646576616e636572, 0x01646576656e6972, 0x01646576696e6572, 0x016465766f6972,
   0x01646961626c65, 0x016469616c6f677565, 0x016469616d616e74, 0x01646963746572,
   0x016469666665cc81726572, 0x0164696765cc81726572, 0x016469676974616c, 0x016469676e65,
   0x0164696c756572, 0x0164696d616e636865, 0x0164696d696e756572, 0x0164696f78796465,
   0x016469726563746966, 0x0164697269676572, 0x016469736375746572, 0x01646973706f736572,
   0x016469737369706572, 0x0164697374616e6365, 0x016469766572746972, 0x0164697669736572]

/-- Entries 576 to 639 of `french` (include/cardano/bip39_dictionary.hpp:8282-10330): docile … électron -/
def french9 : List Nat :=
  [0x01646f63696c65, 0x01646f6374657572, 0x01646f676d65, 0x01646f696774,
   0x01646f6d61696e65, 0x01646f6d6963696c65, 0x01646f6d70746572, 0x01646f6e6174657572,
   0x01646f6e6a6f6e, 0x01646f6e6e6572, 0x01646f70616d696e65, 0x01646f72746f6972,
   0x01646f72757265, 0x01646f73616765, 0x01646f73657572, 0x01646f7373696572,
   0x01646f746174696f6e, 0x01646f75616e696572, 0x01646f75626c65, 0x01646f7563657572,
   0x01646f75746572, 0x01646f79656e, 0x01647261676f6e, 0x01647261706572,
   0x0164726573736572, 0x0164726962626c6572, 0x0164726f6974757265, 0x0164757065726965,
   0x016475706c657865, 0x0164757261626c65, 0x01647572636972, 0x0164796e6173746965,
   0x0165cc81626c6f756972, 0x0165cc81636172746572, 0x0165cc81636861727065, 0x0165cc816368656c6c65,
   0x0165cc81636c6169726572, 0x0165cc81636c69707365, 0x0165cc81636c6f7265, 0x0165cc81636c757365,
   0x0165cc81636f6c65, 0x0165cc81636f6e6f6d6965, 0x0165cc81636f726365, 0x0165cc81636f75746572,
   0x0165cc81637261736572, 0x0165cc81637265cc816d6572, 0x0165cc816372697661696e, 0x0165cc8163726f75,
   0x0165cc8163756d65, 0x0165cc816375726575696c, 0x0165cc81646966696572, 0x0165cc81647571756572,
   0x0165666661636572, 0x016566666563746966, 0x0165666669676965, 0x016566666f7274,
   0x016566667261796572, 0x016566667573696f6e, 0x0165cc8167616c69736572, 0x0165cc816761726572,
   0x0165cc816a6563746572, 0x0165cc816c61626f726572, 0x0165cc816c6172676972, 0x0165cc816c656374726f6e]

/-- Entries 640 to 703 of `french` (include/cardano/bip39_dictionary.hpp:8282-10330): élégant … épilogue -/
def french10 : List Nat :=
  [0x0165cc816c65cc8167616e74, 0x0165cc816c65cc817068616e74, 0x0165cc816c65cc807665, 0x0165cc816c696769626c65,
   0x0165cc816c697469736d65, 0x0165cc816c6f6765, 0x0165cc816c756369646572, 0x0165cc816c75646572,
   0x01656d62616c6c6572, 0x01656d62656c6c6972, 0x01656d6272796f6e, 0x0165cc816d657261756465,
   0x0165cc816d697373696f6e, 0x01656d6d656e6572, 0x0165cc816d6f74696f6e, 0x0165cc816d6f75766f6972,
   0x01656d706572657572, 0x01656d706c6f796572, 0x01656d706f72746572, 0x01656d7072697365,
   0x0165cc816d756c73696f6e, 0x01656e636164726572, 0x01656e636865cc807265, 0x01656e636c617665,
   0x01656e636f636865, 0x01656e646967756572, 0x01656e646f73736572, 0x01656e64726f6974,
   0x01656e6475697265, 0x0165cc816e6572676965, 0x01656e66616e6365, 0x01656e6665726d6572,
   0x01656e666f756972, 0x01656e6761676572, 0x01656e67696e, 0x01656e676c6f626572,
   0x0165cc816e69676d65, 0x01656e6a616d626572, 0x01656e6a6575, 0x01656e6c65766572,
   0x01656e6e656d69, 0x01656e6e7579657578, 0x01656e726963686972, 0x01656e726f62616765,
   0x01656e736569676e65, 0x01656e746173736572, 0x01656e74656e647265, 0x01656e74696572,
   0x01656e746f75726572, 0x01656e747261766572, 0x0165cc816e756d65cc81726572, 0x01656e7661686972,
   0x01656e766961626c65, 0x01656e766f796572, 0x01656e7a796d65, 0x0165cc816f6c69656e,
   0x0165cc8170616973736972, 0x0165cc81706172676e65, 0x0165cc81706174616e74, 0x0165cc817061756c65,
   0x0165cc8170696365726965, 0x0165cc8170696465cc816d6965, 0x0165cc8170696572, 0x0165cc8170696c6f677565]

/-- Entries 704 to 767 of `french` (include/cardano/bip39_dictionary.hpp:8282-10330): épine … exhaler -/
def french11 : List Nat :=
  [0x0165cc8170696e65, 0x0165cc817069736f6465, 0x0165cc8170697461706865, 0x0165cc81706f717565,
   0x0165cc81707265757665, 0x0165cc8170726f75766572, 0x0165cc8170756973616e74, 0x0165cc81717565727265,
   0x0165cc817175697065, 0x0165cc817269676572, 0x0165cc81726f73696f6e, 0x01657272657572,
   0x0165cc8172757074696f6e, 0x01657363616c696572, 0x0165737061646f6e, 0x0165737065cc806365,
   0x016573706965cc80676c65, 0x016573706f6972, 0x01657370726974, 0x016573717569766572,
   0x0165737361796572, 0x01657373656e6365, 0x01657373696575, 0x016573736f726572,
   0x01657374696d65, 0x016573746f6d6163, 0x0165737472616465, 0x0165cc8174616765cc807265,
   0x0165cc8174616c6572, 0x0165cc8174616e636865, 0x0165cc8174617469717565, 0x0165cc817465696e647265,
   0x0165cc8174656e646f6972, 0x0165cc817465726e656c, 0x0165cc817468616e6f6c, 0x0165cc81746869717565,
   0x016574686e6965, 0x0165cc817469726572, 0x0165cc81746f66666572, 0x0165cc81746f696c65,
   0x0165cc81746f6e6e616e74, 0x0165cc81746f7572646972, 0x0165cc817472616e6765, 0x0165cc8174726f6974,
   0x0165cc8174756465, 0x01657570686f726965, 0x0165cc8176616c756572, 0x0165cc81766173696f6e,
   0x0165cc8176656e7461696c, 0x0165cc81766964656e6365, 0x0165cc817669746572, 0x0165cc81766f6c75746966,
   0x0165cc81766f71756572, 0x016578616374, 0x016578616765cc81726572, 0x0165786175636572,
   0x01657863656c6c6572, 0x016578636974616e74, 0x016578636c75736966, 0x01657863757365,
   0x01657865cc816375746572, 0x016578656d706c65, 0x0165786572636572, 0x01657868616c6572]

/-- Entries 768 to 831 of `french` (include/cardano/bip39_dictionary.hpp:8282-10330): exhorter … firme -/
def french12 : List Nat :=
  [0x016578686f72746572, 0x0165786967656e6365, 0x016578696c6572, 0x0165786973746572,
   0x0165786f7469717565, 0x0165787065cc8164696572, 0x016578706c6f726572, 0x016578706f736572,
   0x0165787072696d6572, 0x01657871756973, 0x01657874656e736966, 0x016578747261697265,
   0x016578756c746572, 0x016661626c65, 0x01666162756c657578, 0x0166616365747465,
   0x01666163696c65, 0x0166616374757265, 0x01666169626c6972, 0x0166616c61697365,
   0x0166616d657578, 0x0166616d696c6c65, 0x0166617263657572, 0x0166617266656c75,
   0x01666172696e65, 0x016661726f75636865, 0x0166617363696e6572, 0x01666174616c,
   0x0166617469677565, 0x01666175636f6e, 0x01666175746966, 0x01666176657572,
   0x016661766f7269, 0x016665cc816272696c65, 0x016665cc81636f6e646572, 0x016665cc816465cc81726572,
   0x016665cc816c696e, 0x0166656d6d65, 0x016665cc816d7572, 0x0166656e646f6972,
   0x016665cc816f64616c, 0x016665726d6572, 0x016665cc81726f6365, 0x0166657276657572,
   0x01666573746976616c, 0x01666575696c6c65, 0x01666575747265, 0x016665cc817672696572,
   0x0166696173636f, 0x01666963656c6572, 0x01666963746966, 0x0166696465cc806c65,
   0x01666967757265, 0x0166696c6174757265, 0x0166696c6574616765, 0x0166696c6965cc807265,
   0x0166696c6c65756c, 0x0166696c6d6572, 0x0166696c6f75, 0x0166696c74726572,
   0x0166696e616e636572, 0x0166696e6972, 0x0166696f6c65, 0x016669726d65]

/-- Entries 832 to 895 of `french` (include/cardano/bip39_dictionary.hpp:8282-10330): fissure … garrigue -/
def french13 : List Nat :=
  [0x0166697373757265, 0x016669786572, 0x01666c6169726572, 0x01666c616d6d65,
   0x01666c6173717565, 0x01666c617474657572, 0x01666c65cc816175, 0x01666c65cc80636865,
   0x01666c657572, 0x01666c6578696f6e, 0x01666c6f636f6e, 0x01666c6f7265,
   0x01666c756374756572, 0x01666c75696465, 0x01666c757669616c, 0x01666f6c6965,
   0x01666f6e6465726965, 0x01666f6e6769626c65, 0x01666f6e7461696e65, 0x01666f72636572,
   0x01666f726765726f6e, 0x01666f726d756c6572, 0x01666f7274756e65, 0x01666f7373696c65,
   0x01666f75647265, 0x01666f756765cc807265, 0x01666f75696c6c6572, 0x01666f756c757265,
   0x01666f75726d69, 0x0166726167696c65, 0x01667261697365, 0x016672616e63686972,
   0x0166726170706572, 0x0166726179657572, 0x01667265cc8167617465, 0x01667265696e6572,
   0x016672656c6f6e, 0x01667265cc816d6972, 0x01667265cc816e65cc81736965, 0x01667265cc807265,
   0x0166726961626c65, 0x016672696374696f6e, 0x0166726973736f6e, 0x01667269766f6c65,
   0x0166726f6964, 0x0166726f6d616765, 0x0166726f6e74616c, 0x0166726f74746572,
   0x016672756974, 0x0166756769746966, 0x016675697465, 0x01667572657572,
   0x0166757269657578, 0x01667572746966, 0x01667573696f6e, 0x016675747572,
   0x016761676e6572, 0x0167616c61786965, 0x0167616c65726965, 0x0167616d6261646572,
   0x01676172616e746972, 0x016761726469656e, 0x016761726e6972, 0x016761727269677565]

/-- Entries 896 to 959 of `french` (include/cardano/bip39_dictionary.hpp:8282-10330): gazelle … habitude -/
def french14 : List Nat :=
  [0x0167617a656c6c65, 0x0167617a6f6e, 0x016765cc81616e74, 0x016765cc816c6174696e65,
   0x016765cc816c756c65, 0x0167656e6461726d65, 0x016765cc816e65cc8172616c, 0x016765cc816e6965,
   0x0167656e6f75, 0x0167656e74696c, 0x016765cc816f6c6f676965, 0x016765cc816f6d65cc80747265,
   0x016765cc8172616e69756d, 0x016765726d65, 0x016765737475656c, 0x01676579736572,
   0x01676962696572, 0x016769636c6572, 0x01676972616665, 0x016769767265,
   0x01676c616365, 0x01676c61697665, 0x01676c6973736572, 0x01676c6f6265,
   0x01676c6f697265, 0x01676c6f7269657578, 0x01676f6c66657572, 0x01676f6d6d65,
   0x01676f6e666c6572, 0x01676f726765, 0x01676f72696c6c65, 0x01676f7564726f6e,
   0x01676f7566667265, 0x01676f756c6f74, 0x01676f7570696c6c65, 0x01676f75726d616e64,
   0x01676f75747465, 0x016772616475656c, 0x016772616666697469, 0x01677261696e65,
   0x016772616e64, 0x016772617070696e, 0x0167726174756974, 0x01677261766972,
   0x016772656e6174, 0x016772696666757265, 0x016772696c6c6572, 0x016772696d706572,
   0x0167726f676e6572, 0x0167726f6e646572, 0x0167726f747465, 0x0167726f757065,
   0x01677275676572, 0x0167727574696572, 0x016772757965cc807265, 0x01677565cc8170617264,
   0x016775657272696572, 0x016775696465, 0x016775696d61757665, 0x0167756974617265,
   0x016775737461746966, 0x0167796d6e61737465, 0x016779726f73746174, 0x016861626974756465]

/-- Entries 960 to 1023 of `french` (include/cardano/bip39_dictionary.hpp:8282-10330): hachoir … incarner -/
def french15 : List Nat :=
  [0x01686163686f6972, 0x0168616c7465, 0x0168616d656175, 0x0168616e676172,
   0x0168616e6e65746f6e, 0x0168617269636f74, 0x016861726d6f6e6965, 0x01686172706f6e,
   0x01686173617264, 0x016865cc816c69756d, 0x016865cc816d61746f6d65, 0x016865726265,
   0x016865cc81726973736f6e, 0x016865726d696e65, 0x016865cc81726f6e, 0x016865cc817369746572,
   0x0168657572657578, 0x0168696265726e6572, 0x016869626f75, 0x0168696c6172616e74,
   0x01686973746f697265, 0x016869766572, 0x01686f6d617264, 0x01686f6d6d616765,
   0x01686f6d6f6765cc806e65, 0x01686f6e6e657572, 0x01686f6e6f726572, 0x01686f6e74657578,
   0x01686f726465, 0x01686f72697a6f6e, 0x01686f726c6f6765, 0x01686f726d6f6e65,
   0x01686f727269626c65, 0x01686f756c657578, 0x01686f75737365, 0x016875626c6f74,
   0x016875696c657578, 0x0168756d61696e, 0x0168756d626c65, 0x0168756d696465,
   0x0168756d6f7572, 0x016875726c6572, 0x01687964726f6d656c, 0x016879676965cc806e65,
   0x0168796d6e65, 0x016879706e6f7365, 0x016964796c6c65, 0x0169676e6f726572,
   0x01696775616e65, 0x01696c6c6963697465, 0x01696c6c7573696f6e, 0x01696d616765,
   0x01696d6269626572, 0x01696d69746572, 0x01696d6d656e7365, 0x01696d6d6f62696c65,
   0x01696d6d7561626c65, 0x01696d70616374, 0x01696d7065cc817269616c, 0x01696d706c6f726572,
   0x01696d706f736572, 0x01696d7072696d6572, 0x01696d7075746572, 0x01696e6361726e6572]

/-- Entries 1024 to 1087 of `french` (include/cardano/bip39_dictionary.hpp:8282-10330): incendie … journal -/
def french16 : List Nat :=
  [0x01696e63656e646965, 0x01696e636964656e74, 0x01696e636c696e6572, 0x01696e636f6c6f7265,
   0x01696e6465786572, 0x01696e64696365, 0x01696e647563746966, 0x01696e65cc81646974,
   0x01696e6570746965, 0x01696e6578616374, 0x01696e66696e69, 0x01696e666c69676572,
   0x01696e666f726d6572, 0x01696e667573696f6e, 0x01696e6765cc81726572, 0x01696e68616c6572,
   0x01696e6869626572, 0x01696e6a6563746572, 0x01696e6a757265, 0x01696e6e6f63656e74,
   0x01696e6f63756c6572, 0x01696e6f6e646572, 0x01696e736372697265, 0x01696e7365637465,
   0x01696e7369676e65, 0x01696e736f6c697465, 0x01696e737069726572, 0x01696e7374696e6374,
   0x01696e73756c746572, 0x01696e74616374, 0x01696e74656e7365, 0x01696e74696d65,
   0x01696e747269677565, 0x01696e747569746966, 0x01696e7574696c65, 0x01696e766173696f6e,
   0x01696e76656e746572, 0x01696e7669746572, 0x01696e766f71756572, 0x0169726f6e69717565,
   0x016972726164696572, 0x0169727265cc81656c, 0x0169727269746572, 0x0169736f6c6572,
   0x0169766f697265, 0x0169767265737365, 0x016a6167756172, 0x016a61696c6c6972,
   0x016a616d6265, 0x016a616e76696572, 0x016a617264696e, 0x016a6175676572,
   0x016a61756e65, 0x016a6176656c6f74, 0x016a657461626c65, 0x016a65746f6e,
   0x016a65756469, 0x016a65756e65737365, 0x016a6f696e647265, 0x016a6f6e63686572,
   0x016a6f6e676c6572, 0x016a6f75657572, 0x016a6f756973736966, 0x016a6f75726e616c]

/-- Entries 1088 to 1151 of `french` (include/cardano/bip39_dictionary.hpp:8282-10330): jovial … lister -/
def french17 : List Nat :=
  [0x016a6f7669616c, 0x016a6f796175, 0x016a6f79657578, 0x016a7562696c6572,
   0x016a7567656d656e74, 0x016a756e696f72, 0x016a75706f6e, 0x016a757269737465,
   0x016a757374696365, 0x016a7574657578, 0x016a757665cc816e696c65, 0x016b6179616b,
   0x016b696d6f6e6f, 0x016b696f73717565, 0x016c6162656c, 0x016c616269616c,
   0x016c61626f75726572, 0x016c616365cc81726572, 0x016c6163746f7365, 0x016c6167756e65,
   0x016c61696e65, 0x016c616973736572, 0x016c616974696572, 0x016c616d62656175,
   0x016c616d656c6c65, 0x016c616d7065, 0x016c616e63657572, 0x016c616e67616765,
   0x016c616e7465726e65, 0x016c6170696e, 0x016c617267657572, 0x016c61726d65,
   0x016c617572696572, 0x016c617661626f, 0x016c61766f6972, 0x016c656374757265,
   0x016c65cc8167616c, 0x016c65cc81676572, 0x016c65cc8167756d65, 0x016c657373697665,
   0x016c6574747265, 0x016c6576696572, 0x016c657869717565, 0x016c65cc817a617264,
   0x016c6961737365, 0x016c696265cc81726572, 0x016c69627265, 0x016c6963656e6365,
   0x016c69636f726e65, 0x016c6965cc806765, 0x016c6965cc80767265, 0x016c69676174757265,
   0x016c69676f746572, 0x016c69677565, 0x016c696d6572, 0x016c696d697465,
   0x016c696d6f6e616465, 0x016c696d70696465, 0x016c696e65cc8161697265, 0x016c696e676f74,
   0x016c696f6e63656175, 0x016c697175696465, 0x016c69736965cc807265, 0x016c6973746572]

/-- Entries 1152 to 1215 of `french` (include/cardano/bip39_dictionary.hpp:8282-10330): lithium … maximal -/
def french18 : List Nat :=
  [0x016c69746869756d, 0x016c6974696765, 0x016c6974746f72616c, 0x016c697672657572,
   0x016c6f6769717565, 0x016c6f696e7461696e, 0x016c6f69736972, 0x016c6f6d62726963,
   0x016c6f7465726965, 0x016c6f756572, 0x016c6f757264, 0x016c6f75747265,
   0x016c6f757665, 0x016c6f79616c, 0x016c75626965, 0x016c7563696465,
   0x016c75637261746966, 0x016c75657572, 0x016c756775627265, 0x016c756973616e74,
   0x016c756d6965cc807265, 0x016c756e61697265, 0x016c756e6469, 0x016c75726f6e,
   0x016c7574746572, 0x016c757875657578, 0x016d616368696e65, 0x016d61676173696e,
   0x016d6167656e7461, 0x016d616769717565, 0x016d6169677265, 0x016d61696c6c6f6e,
   0x016d61696e7469656e, 0x016d6169726965, 0x016d6169736f6e, 0x016d616a6f726572,
   0x016d616c61786572, 0x016d616c65cc8166696365, 0x016d616c68657572, 0x016d616c696365,
   0x016d616c6c65747465, 0x016d616d6d6f757468, 0x016d616e6461746572, 0x016d616e6961626c65,
   0x016d616e7175616e74, 0x016d616e74656175, 0x016d616e75656c, 0x016d61726174686f6e,
   0x016d6172627265, 0x016d61726368616e64, 0x016d61726469, 0x016d61726974696d65,
   0x016d61727175657572, 0x016d6172726f6e, 0x016d617274656c6572, 0x016d6173636f747465,
   0x016d6173736966, 0x016d617465cc817269656c, 0x016d61746965cc807265, 0x016d61747261717565,
   0x016d617564697265, 0x016d61757373616465, 0x016d61757665, 0x016d6178696d616c]

/-- Entries 1216 to 1279 of `french` (include/cardano/bip39_dictionary.hpp:8282-10330): méchant … mouton -/
def french19 : List Nat :=
  [0x016d65cc816368616e74, 0x016d65cc81636f6e6e75, 0x016d65cc816461696c6c65, 0x016d65cc81646563696e,
   0x016d65cc816469746572, 0x016d65cc8164757365, 0x016d65696c6c657572, 0x016d65cc816c616e6765,
   0x016d65cc816c6f646965, 0x016d656d627265, 0x016d65cc816d6f697265, 0x016d656e61636572,
   0x016d656e6572, 0x016d656e686972, 0x016d656e736f6e6765, 0x016d656e746f72,
   0x016d65726372656469, 0x016d65cc8172697465, 0x016d65726c65, 0x016d65737361676572,
   0x016d6573757265, 0x016d65cc8174616c, 0x016d65cc817465cc816f7265, 0x016d65cc8174686f6465,
   0x016d65cc8174696572, 0x016d6575626c65, 0x016d6961756c6572, 0x016d6963726f6265,
   0x016d6965747465, 0x016d69676e6f6e, 0x016d6967726572, 0x016d696c696575,
   0x016d696c6c696f6e, 0x016d696d69717565, 0x016d696e6365, 0x016d696e65cc8172616c,
   0x016d696e696d616c, 0x016d696e6f726572, 0x016d696e757465, 0x016d697261636c65,
   0x016d69726f69746572, 0x016d697373696c65, 0x016d69787465, 0x016d6f62696c65,
   0x016d6f6465726e65, 0x016d6f656c6c657578, 0x016d6f6e6469616c, 0x016d6f6e6974657572,
   0x016d6f6e6e616965, 0x016d6f6e6f746f6e65, 0x016d6f6e73747265, 0x016d6f6e7461676e65,
   0x016d6f6e756d656e74, 0x016d6f7175657572, 0x016d6f7263656175, 0x016d6f7273757265,
   0x016d6f7274696572, 0x016d6f74657572, 0x016d6f746966, 0x016d6f75636865,
   0x016d6f75666c65, 0x016d6f756c696e, 0x016d6f7573736f6e, 0x016d6f75746f6e]

/-- Entries 1280 to 1343 of `french` (include/cardano/bip39_dictionary.hpp:8282-10330): mouvant … numéro -/
def french20 : List Nat :=
  [0x016d6f7576616e74, 0x016d756c7469706c65, 0x016d756e6974696f6e, 0x016d757261696c6c65,
   0x016d757265cc806e65, 0x016d75726d757265, 0x016d7573636c65, 0x016d757365cc81756d,
   0x016d7573696369656e, 0x016d75746174696f6e, 0x016d75746572, 0x016d757475656c,
   0x016d797269616465, 0x016d797274696c6c65, 0x016d79737465cc807265, 0x016d79746869717565,
   0x016e6167657572, 0x016e61707065, 0x016e617271756f6973, 0x016e6172726572,
   0x016e61746174696f6e, 0x016e6174696f6e, 0x016e6174757265, 0x016e61756672616765,
   0x016e61757469717565, 0x016e6176697265, 0x016e65cc8162756c657578, 0x016e6563746172,
   0x016e65cc816661737465, 0x016e65cc81676174696f6e, 0x016e65cc81676c69676572, 0x016e65cc81676f63696572,
   0x016e65696765, 0x016e657276657578, 0x016e6574746f796572, 0x016e6575726f6e65,
   0x016e657574726f6e, 0x016e65766575, 0x016e69636865, 0x016e69636b656c,
   0x016e697472617465, 0x016e6976656175, 0x016e6f626c65, 0x016e6f636966,
   0x016e6f637475726e65, 0x016e6f697263657572, 0x016e6f697365747465, 0x016e6f6d616465,
   0x016e6f6d6272657578, 0x016e6f6d6d6572, 0x016e6f726d61746966, 0x016e6f7461626c65,
   0x016e6f746966696572, 0x016e6f746f697265, 0x016e6f7572726972, 0x016e6f7576656175,
   0x016e6f766174657572, 0x016e6f76656d627265, 0x016e6f76696365, 0x016e75616765,
   0x016e75616e636572, 0x016e75697265, 0x016e75697369626c65, 0x016e756d65cc81726f]

/-- Entries 1344 to 1407 of `french` (include/cardano/bip39_dictionary.hpp:8282-10330): nuptial … oxyde -/
def french21 : List Nat :=
  [0x016e75707469616c, 0x016e75717565, 0x016e75747269746966, 0x016f6265cc816972,
   0x016f626a6563746966, 0x016f626c69676572, 0x016f6273637572, 0x016f62736572766572,
   0x016f62737461636c65, 0x016f6274656e6972, 0x016f627475726572, 0x016f63636173696f6e,
   0x016f636375706572, 0x016f6365cc81616e, 0x016f63746f627265, 0x016f6374726f796572,
   0x016f637475706c6572, 0x016f63756c61697265, 0x016f64657572, 0x016f646f72616e74,
   0x016f6666656e736572, 0x016f66666963696572, 0x016f6666726972, 0x016f67697665,
   0x016f6973656175, 0x016f6973696c6c6f6e, 0x016f6c666163746966, 0x016f6c6976696572,
   0x016f6d6272616765, 0x016f6d6574747265, 0x016f6e637475657578, 0x016f6e64756c6572,
   0x016f6e65cc8172657578, 0x016f6e697269717565, 0x016f70616c65, 0x016f7061717565,
   0x016f7065cc81726572, 0x016f70696e696f6e, 0x016f70706f7274756e, 0x016f707072696d6572,
   0x016f70746572, 0x016f707469717565, 0x016f726167657578, 0x016f72616e6765,
   0x016f7262697465, 0x016f72646f6e6e6572, 0x016f7265696c6c65, 0x016f7267616e65,
   0x016f72677565696c, 0x016f726966696365, 0x016f726e656d656e74, 0x016f72717565,
   0x016f72746965, 0x016f7363696c6c6572, 0x016f736d6f7365, 0x016f73736174757265,
   0x016f7461726965, 0x016f75726167616e, 0x016f7572736f6e, 0x016f7574696c,
   0x016f75747261676572, 0x016f757672616765, 0x016f766174696f6e, 0x016f78796465]

/-- Entries 1408 to 1471 of `french` (include/cardano/bip39_dictionary.hpp:8282-10330): oxygène … peuple -/
def french22 : List Nat :=
  [0x016f78796765cc806e65, 0x016f7a6f6e65, 0x017061697369626c65, 0x0170616c616365,
   0x0170616c6d617265cc8073, 0x0170616c6f75726465, 0x0170616c706572, 0x0170616e61636865,
   0x0170616e6461, 0x0170616e676f6c696e, 0x0170616e6971756572, 0x0170616e6e656175,
   0x0170616e6f72616d61, 0x0170616e74616c6f6e, 0x01706170617965, 0x01706170696572,
   0x017061706f746572, 0x0170617079727573, 0x0170617261646f7865, 0x0170617263656c6c65,
   0x0170617265737365, 0x0170617266756d6572, 0x017061726c6572, 0x017061726f6c65,
   0x017061727261696e, 0x0170617273656d6572, 0x017061727461676572, 0x01706172757265,
   0x0170617276656e6972, 0x0170617373696f6e, 0x017061737465cc80717565, 0x0170617465726e656c,
   0x0170617469656e6365, 0x01706174726f6e, 0x01706176696c6c6f6e, 0x017061766f69736572,
   0x017061796572, 0x0170617973616765, 0x01706569676e65, 0x017065696e747265,
   0x0170656c616765, 0x017065cc816c6963616e, 0x0170656c6c65, 0x0170656c6f757365,
   0x0170656c75636865, 0x0170656e64756c65, 0x017065cc816e65cc8174726572, 0x017065cc816e69626c65,
   0x0170656e736966, 0x017065cc816e75726965, 0x017065cc8170697465, 0x017065cc81706c756d,
   0x0170657264726978, 0x01706572666f726572, 0x017065cc8172696f6465, 0x017065726d75746572,
   0x01706572706c657865, 0x0170657273696c, 0x017065727465, 0x017065736572,
   0x017065cc8174616c65, 0x017065746974, 0x017065cc8174726972, 0x01706575706c65]

/-- Entries 1472 to 1535 of `french` (include/cardano/bip39_dictionary.hpp:8282-10330): pharaon … pouvoir -/
def french23 : List Nat :=
  [0x0170686172616f6e, 0x0170686f626965, 0x0170686f717565, 0x0170686f746f6e,
   0x01706872617365, 0x017068797369717565, 0x017069616e6f, 0x01706963747572616c,
   0x01706965cc806365, 0x01706965727265, 0x0170696575767265, 0x0170696c6f7465,
   0x0170696e63656175, 0x0170697065747465, 0x01706971756572, 0x017069726f677565,
   0x0170697363696e65, 0x01706973746f6e, 0x017069766f746572, 0x01706978656c,
   0x0170697a7a61, 0x01706c6163617264, 0x01706c61666f6e64, 0x01706c6169736972,
   0x01706c616e6572, 0x01706c61717565, 0x01706c617374726f6e, 0x01706c6174656175,
   0x01706c6575726572, 0x01706c65787573, 0x01706c69616765, 0x01706c6f6d62,
   0x01706c6f6e676572, 0x01706c756965, 0x01706c756d616765, 0x01706f636865747465,
   0x01706f65cc81736965, 0x01706f65cc807465, 0x01706f696e7465, 0x01706f6972696572,
   0x01706f6973736f6e, 0x01706f69767265, 0x01706f6c61697265, 0x01706f6c6963696572,
   0x01706f6c6c656e, 0x01706f6c79676f6e65, 0x01706f6d6d616465, 0x01706f6d70696572,
   0x01706f6e637475656c, 0x01706f6e6465cc81726572, 0x01706f6e6579, 0x01706f727469717565,
   0x01706f736974696f6e, 0x01706f737365cc81646572, 0x01706f7374757265, 0x01706f7461676572,
   0x01706f74656175, 0x01706f74696f6e, 0x01706f756365, 0x01706f756c61696e,
   0x01706f756d6f6e, 0x01706f7572707265, 0x01706f757373696e, 0x01706f75766f6972]

/-- Entries 1536 to 1599 of `french` (include/cardano/bip39_dictionary.hpp:8282-10330): prairie … réactif -/
def french24 : List Nat :=
  [0x0170726169726965, 0x017072617469717565, 0x01707265cc816369657578, 0x01707265cc8164697265,
   0x01707265cc8166697865, 0x01707265cc816c756465, 0x01707265cc816e6f6d, 0x01707265cc8173656e6365,
   0x01707265cc817465787465, 0x01707265cc81766f6972, 0x017072696d69746966, 0x017072696e6365,
   0x01707269736f6e, 0x01707269766572, 0x0170726f626c65cc806d65, 0x0170726f6365cc81646572,
   0x0170726f64696765, 0x0170726f666f6e64, 0x0170726f677265cc8073, 0x0170726f6965,
   0x0170726f6a65746572, 0x0170726f6c6f677565, 0x0170726f6d656e6572, 0x0170726f707265,
   0x0170726f737065cc807265, 0x0170726f7465cc81676572, 0x0170726f7565737365, 0x0170726f7665726265,
   0x0170727564656e6365, 0x017072756e656175, 0x0170737963686f7365, 0x017075626c6963,
   0x0170756365726f6e, 0x01707569736572, 0x0170756c7065, 0x0170756c736172,
   0x0170756e61697365, 0x0170756e69746966, 0x0170757069747265, 0x017075726966696572,
   0x0170757a7a6c65, 0x01707972616d696465, 0x01717561736172, 0x0171756572656c6c65,
   0x017175657374696f6e, 0x0171756965cc8174756465, 0x0171756974746572, 0x0171756f7469656e74,
   0x01726163696e65, 0x017261636f6e746572, 0x0172616469657578, 0x017261676f6e64696e,
   0x0172616964657572, 0x0172616973696e, 0x0172616c656e746972, 0x0172616c6c6f6e6765,
   0x0172616d6173736572, 0x01726170696465, 0x01726173616765, 0x017261746973736572,
   0x0172617661676572, 0x01726176696e, 0x017261796f6e6e6572, 0x017265cc816163746966]

/-- Entries 1600 to 1663 of `french` (include/cardano/bip39_dictionary.hpp:8282-10330): réagir … rieur -/
def french25 : List Nat :=
  [0x017265cc8161676972, 0x017265cc81616c69736572, 0x017265cc81616e696d6572, 0x0172656365766f6972,
   0x017265cc816369746572, 0x017265cc81636c616d6572, 0x017265cc81636f6c746572, 0x017265637275746572,
   0x01726563756c6572, 0x0172656379636c6572, 0x017265cc816469676572, 0x017265646f75746572,
   0x0172656661697265, 0x017265cc81666c657865, 0x017265cc81666f726d6572, 0x017265667261696e,
   0x01726566756765, 0x017265cc8167616c69656e, 0x017265cc8167696f6e, 0x017265cc81676c616765,
   0x017265cc8167756c696572, 0x017265cc81697465cc81726572, 0x0172656a65746572, 0x0172656a6f756572,
   0x0172656c61746966, 0x0172656c65766572, 0x0172656c696566, 0x0172656d6172717565,
   0x0172656d65cc806465, 0x0172656d697365, 0x0172656d6f6e746572, 0x0172656d706c6972,
   0x0172656d756572, 0x0172656e617264, 0x0172656e666f7274, 0x0172656e69666c6572,
   0x0172656e6f6e636572, 0x0172656e74726572, 0x0172656e766f69, 0x017265706c696572,
   0x017265706f72746572, 0x0172657072697365, 0x0172657074696c65, 0x0172657175696e,
   0x017265cc817365727665, 0x017265cc8173696e657578, 0x017265cc81736f75647265, 0x0172657370656374,
   0x01726573746572, 0x017265cc8173756c746174, 0x017265cc817461626c6972, 0x01726574656e6972,
   0x017265cc81746963756c65, 0x017265746f6d626572, 0x017265747261636572, 0x017265cc81756e696f6e,
   0x017265cc817573736972, 0x01726576616e636865, 0x0172657669767265, 0x017265cc81766f6c7465,
   0x017265cc8176756c736966, 0x017269636865737365, 0x01726964656175, 0x017269657572]

/-- Entries 1664 to 1727 of `french` (include/cardano/bip39_dictionary.hpp:8282-10330): rigide … science -/
def french26 : List Nat :=
  [0x01726967696465, 0x017269676f6c6572, 0x0172696e636572, 0x017269706f73746572,
   0x0172697369626c65, 0x01726973717565, 0x0172697475656c, 0x01726976616c,
   0x017269766965cc807265, 0x01726f6368657578, 0x01726f6d616e6365, 0x01726f6d707265,
   0x01726f6e6365, 0x01726f6e64696e, 0x01726f73656175, 0x01726f73696572,
   0x01726f7461746966, 0x01726f746f72, 0x01726f74756c65, 0x01726f756765,
   0x01726f75696c6c65, 0x01726f756c656175, 0x01726f7574696e65, 0x01726f7961756d65,
   0x01727562616e, 0x017275626973, 0x017275636865, 0x017275656c6c65,
   0x0172756775657578, 0x017275696e6572, 0x017275697373656175, 0x017275736572,
   0x017275737469717565, 0x01727974686d65, 0x017361626c6572, 0x017361626f746572,
   0x017361627265, 0x017361636f636865, 0x01736166617269, 0x0173616765737365,
   0x01736169736972, 0x0173616c616465, 0x0173616c697665, 0x0173616c6f6e,
   0x0173616c756572, 0x0173616d656469, 0x0173616e6374696f6e, 0x0173616e676c696572,
   0x017361726361736d65, 0x0173617264696e65, 0x0173617475726572, 0x017361756772656e75,
   0x017361756d6f6e, 0x01736175746572, 0x0173617576616765, 0x01736176616e74,
   0x017361766f6e6e6572, 0x017363616c70656c, 0x017363616e64616c65, 0x01736365cc816c65cc81726174,
   0x01736365cc816e6172696f, 0x0173636570747265, 0x0173636865cc816d61, 0x01736369656e6365]

/-- Entries 1728 to 1791 of `french` (include/cardano/bip39_dictionary.hpp:8282-10330): scinder … sonore -/
def french27 : List Nat :=
  [0x017363696e646572, 0x0173636f7265, 0x017363727574696e, 0x017363756c70746572,
   0x017365cc81616e6365, 0x017365cc816361626c65, 0x017365cc8163686572, 0x017365636f756572,
   0x017365cc81637265cc81746572, 0x017365cc816461746966, 0x017365cc816475697265, 0x01736569676e657572,
   0x017365cc816a6f7572, 0x017365cc816c6563746966, 0x0173656d61696e65, 0x0173656d626c6572,
   0x0173656d656e6365, 0x017365cc816d696e616c, 0x017365cc816e6174657572, 0x0173656e7369626c65,
   0x0173656e74656e6365, 0x017365cc817061726572, 0x017365cc817175656e6365, 0x0173657265696e,
   0x0173657267656e74, 0x017365cc817269657578, 0x0173657272757265, 0x017365cc8172756d,
   0x0173657276696365, 0x017365cc8173616d65, 0x017365cc81766972, 0x0173657672616765,
   0x017365787475706c65, 0x0173696465cc8172616c, 0x01736965cc80636c65, 0x01736965cc81676572,
   0x01736966666c6572, 0x017369676c65, 0x017369676e616c, 0x0173696c656e6365,
   0x0173696c696369756d, 0x0173696d706c65, 0x0173696e6365cc807265, 0x0173696e6973747265,
   0x01736970686f6e, 0x017369726f70, 0x017369736d69717565, 0x01736974756572,
   0x01736b696572, 0x01736f6369616c, 0x01736f636c65, 0x01736f6469756d,
   0x01736f69676e657578, 0x01736f6c646174, 0x01736f6c65696c, 0x01736f6c6974756465,
   0x01736f6c75626c65, 0x01736f6d627265, 0x01736f6d6d65696c, 0x01736f6d6e6f6c6572,
   0x01736f6e6465, 0x01736f6e67657572, 0x01736f6e6e65747465, 0x01736f6e6f7265]

/-- Entries 1792 to 1855 of `french` (include/cardano/bip39_dictionary.hpp:8282-10330): sorcier … tarder -/
def french28 : List Nat :=
  [0x01736f7263696572, 0x01736f72746972, 0x01736f736965, 0x01736f7474697365,
   0x01736f756369657578, 0x01736f7564757265, 0x01736f7566666c65, 0x01736f756c65766572,
   0x01736f7570617065, 0x01736f75726365, 0x01736f757469726572, 0x01736f7576656e6972,
   0x017370616369657578, 0x017370617469616c, 0x01737065cc816369616c, 0x0173706865cc807265,
   0x0173706972616c, 0x01737461626c65, 0x0173746174696f6e, 0x01737465726e756d,
   0x017374696d756c7573, 0x0173746970756c6572, 0x01737472696374, 0x017374756469657578,
   0x0173747570657572, 0x017374796c69737465, 0x017375626c696d65, 0x017375627374726174,
   0x0173756274696c, 0x0173756276656e6972, 0x017375636365cc8073, 0x017375637265,
   0x0173756666697865, 0x017375676765cc81726572, 0x0173756976657572, 0x0173756c66617465,
   0x0173757065726265, 0x01737570706c696572, 0x0173757266616365, 0x017375726963617465,
   0x017375726d656e6572, 0x017375727072697365, 0x0173757273617574, 0x01737572766965,
   0x0173757370656374, 0x0173796c6c616265, 0x0173796d626f6c65, 0x0173796d65cc8174726965,
   0x0173796e61707365, 0x0173796e74617865, 0x017379737465cc806d65, 0x017461626163,
   0x017461626c696572, 0x0174616374696c65, 0x017461696c6c6572, 0x0174616c656e74,
   0x0174616c69736d616e, 0x0174616c6f6e6e6572, 0x0174616d626f7572, 0x0174616d69736572,
   0x0174616e6769626c65, 0x017461706973, 0x0174617175696e6572, 0x01746172646572]

/-- Entries 1856 to 1919 of `french` (include/cardano/bip39_dictionary.hpp:8282-10330): tarif … tribunal -/
def french29 : List Nat :=
  [0x017461726966, 0x0174617274696e65, 0x017461737365, 0x01746174616d69,
   0x017461746f75616765, 0x017461757065, 0x0174617572656175, 0x017461786572,
   0x017465cc816d6f696e, 0x0174656d706f72656c, 0x0174656e61696c6c65, 0x0174656e647265,
   0x0174656e657572, 0x0174656e6972, 0x0174656e73696f6e, 0x017465726d696e6572,
   0x017465726e65, 0x017465727269626c65, 0x017465cc8174696e65, 0x017465787465,
   0x01746865cc806d65, 0x01746865cc816f726965, 0x01746865cc817261706965, 0x0174686f726178,
   0x017469626961, 0x01746965cc806465, 0x0174696d696465, 0x01746972656c697265,
   0x017469726f6972, 0x017469737375, 0x01746974616e65, 0x017469747265,
   0x0174697475626572, 0x01746f626f6767616e, 0x01746f6c65cc8172616e74, 0x01746f6d617465,
   0x01746f6e69717565, 0x01746f6e6e656175, 0x01746f706f6e796d65, 0x01746f72636865,
   0x01746f72647265, 0x01746f726e616465, 0x01746f7270696c6c65, 0x01746f7272656e74,
   0x01746f727365, 0x01746f72747565, 0x01746f74656d, 0x01746f7563686572,
   0x01746f75726e616765, 0x01746f7573736572, 0x01746f78696e65, 0x017472616374696f6e,
   0x01747261666963, 0x017472616769717565, 0x01747261686972, 0x01747261696e,
   0x017472616e63686572, 0x017472617661696c, 0x01747265cc80666c65, 0x017472656d706572,
   0x01747265cc81736f72, 0x0174726575696c, 0x01747269616765, 0x0174726962756e616c]

/-- Entries 1920 to 1983 of `french` (include/cardano/bip39_dictionary.hpp:8282-10330): tricoter … véloce -/
def french30 : List Nat :=
  [0x01747269636f746572, 0x017472696c6f676965, 0x017472696f6d706865, 0x01747269706c6572,
   0x017472697475726572, 0x017472697669616c, 0x0174726f6d626f6e65, 0x0174726f6e63,
   0x0174726f706963616c, 0x0174726f7570656175, 0x017475696c65, 0x0174756c697065,
   0x0174756d756c7465, 0x0174756e6e656c, 0x0174757262696e65, 0x01747574657572,
   0x017475746f796572, 0x017475796175, 0x0174796d70616e, 0x01747970686f6e,
   0x0174797069717565, 0x01747972616e, 0x017562756573717565, 0x01756c74696d65,
   0x01756c747261736f6e, 0x01756e616e696d65, 0x01756e6966696572, 0x01756e696f6e,
   0x01756e69717565, 0x01756e697461697265, 0x01756e6976657273, 0x017572616e69756d,
   0x0175726261696e, 0x017572746963616e74, 0x017573616765, 0x017573696e65,
   0x01757375656c, 0x017573757265, 0x017574696c65, 0x0175746f706965,
   0x0176616361726d65, 0x0176616363696e, 0x0176616761626f6e64, 0x017661677565,
   0x017661696c6c616e74, 0x017661696e637265, 0x017661697373656175, 0x0176616c61626c65,
   0x0176616c697365, 0x0176616c6c6f6e, 0x0176616c7665, 0x0176616d70697265,
   0x0176616e696c6c65, 0x01766170657572, 0x01766172696572, 0x01766173657578,
   0x0176617373616c, 0x017661737465, 0x0176656374657572, 0x0176656465747465,
   0x017665cc816765cc8174616c, 0x017665cc81686963756c65, 0x017665696e617264, 0x017665cc816c6f6365]

/-- Entries 1984 to 2047 of `french` (include/cardano/bip39_dictionary.hpp:8282-10330): vendredi … zoologie -/
def french31 : List Nat :=
  [0x0176656e6472656469, 0x017665cc816e65cc81726572, 0x0176656e676572, 0x0176656e696d657578,
   0x0176656e746f757365, 0x0176657264757265, 0x017665cc8172696e, 0x017665726e6972,
   0x01766572726f75, 0x01766572736572, 0x017665727475, 0x01766573746f6e,
   0x017665cc817465cc8172616e, 0x017665cc817475737465, 0x01766578616e74, 0x017665786572,
   0x01766961647563, 0x017669616e6465, 0x01766963746f697265, 0x01766964616e6765,
   0x0176696465cc816f, 0x017669676e65747465, 0x0176696775657572, 0x0176696c61696e,
   0x0176696c6c616765, 0x0176696e6169677265, 0x0176696f6c6f6e, 0x0176697065cc807265,
   0x01766972656d656e74, 0x0176697274756f7365, 0x017669727573, 0x01766973616765,
   0x01766973657572, 0x01766973696f6e, 0x017669737175657578, 0x0176697375656c,
   0x01766974616c, 0x0176697465737365, 0x0176697469636f6c65, 0x0176697472696e65,
   0x01766976616365, 0x017669766970617265, 0x01766f636174696f6e, 0x01766f67756572,
   0x01766f696c65, 0x01766f6973696e, 0x01766f6974757265, 0x01766f6c61696c6c65,
   0x01766f6c63616e, 0x01766f6c7469676572, 0x01766f6c756d65, 0x01766f72616365,
   0x01766f72746578, 0x01766f746572, 0x01766f756c6f6972, 0x01766f79616765,
   0x01766f79656c6c65, 0x017761676f6e, 0x017865cc816e6f6e, 0x017961636874,
   0x017a65cc80627265, 0x017a65cc816e697468, 0x017a65737465, 0x017a6f6f6c6f676965]

/-- The table `french` (include/cardano/bip39_dictionary.hpp:8282-10330). -/
def french : List Nat :=
  french0 ++ (french1 ++ (french2 ++ (french3 ++ (french4 ++ (french5 ++ (french6 ++ (french7 ++ (french8 ++ (french9 ++ (french10 ++ (french11 ++ (french12 ++ (french13 ++ (french14 ++ (french15 ++ (french16 ++ (french17 ++ (french18 ++ (french19 ++ (french20 ++ (french21 ++ (french22 ++ (french23 ++ (french24 ++ (french25 ++ (french26 ++ (french27 ++ (french28 ++ (french29 ++ (french30 ++ (french31)))))))))))))))))))))))))))))))

end Cardano.Bip39
