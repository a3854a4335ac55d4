/-! Generated from include/cardano/bip39_dictionary.hpp:10332-12380 (the table `italian`).
Each word is written as one number: the byte 1 followed by the bytes of the word. -/

namespace Cardano.Bip39

/-- Entries 0 to 63 of `italian` (include/cardano/bip39_dictionary.hpp:10332-12380): abaco … almeno -/
def italian0 : List Nat :=
  [0x01616261636f, 0x0161626261676c696f, 0x01616262696e61746f, 0x016162657465,
   0x0161626973736f, 0x0161626f6c697265, 0x01616272617369766f, 0x016162726f6761746f,
   0x016163636164657265, 0x01616363656e6e6f, 0x01616363757361746f, 0x01616365746f6e65,
   0x01616368696c6c65, 0x01616369646f, 0x016163717561, 0x0161637265,
   0x01616372696c69636f, 0x016163726f62617461, 0x01616375746f, 0x0161646167696f,
   0x01616464656269746f, 0x016164646f6d65, 0x01616465677561746f, 0x0161646572697265,
   0x016164697065, 0x0161646f7474617265, 0x016164756c617265, 0x016166666162696c65,
   0x016166666574746f, 0x016166666973736f, 0x0161666672616e746f, 0x0161666f7269736d61,
   0x0161666f736f, 0x016166726963616e6f, 0x016167617665, 0x016167656e7465,
   0x01616765766f6c65, 0x01616767616e63696f, 0x016167697265, 0x0161676974617265,
   0x0161676f6e69736d6f, 0x0161677269636f6c6f, 0x01616772756d65746f, 0x016167757a7a6f,
   0x01616c616261726461, 0x01616c61746f, 0x01616c626174726f, 0x01616c62657261746f,
   0x01616c626f, 0x01616c62756d65, 0x01616c6365, 0x01616c636f6c69636f,
   0x01616c6574746f6e65, 0x01616c6661, 0x01616c6765627261, 0x01616c69616e7465,
   0x01616c696269, 0x01616c696d656e746f, 0x01616c6c616761746f, 0x01616c6c6567726f,
   0x01616c6c6965766f, 0x01616c6c6f646f6c61, 0x01616c6c757369766f, 0x01616c6d656e6f]

/-- Entries 64 to 127 of `italian` (include/cardano/bip39_dictionary.hpp:10332-12380): alogeno … aratura -/
def italian1 : List Nat :=
  [0x01616c6f67656e6f, 0x01616c70616361, 0x01616c706573747265, 0x01616c74616c656e61,
   0x01616c7465726e6f, 0x01616c74696363696f, 0x01616c74726f7665, 0x01616c756e6e6f,
   0x01616c76656f6c6f, 0x01616c7a617265, 0x01616d616c67616d61, 0x01616d616e697461,
   0x01616d6172656e61, 0x01616d6269746f, 0x01616d627261746f, 0x01616d656261,
   0x01616d6572696361, 0x01616d657469737461, 0x01616d69636f, 0x01616d6d6173736f,
   0x01616d6d656e6461, 0x01616d6d6972617265, 0x01616d6d6f6e69746f, 0x01616d6f7265,
   0x01616d70696f, 0x01616d706c69617265, 0x01616d756c65746f, 0x01616e61636172646f,
   0x01616e616772616665, 0x01616e616c69737461, 0x01616e617263686961, 0x01616e61747261,
   0x01616e6361, 0x01616e63656c6c61, 0x01616e636f7261, 0x01616e64617265,
   0x01616e64726561, 0x01616e656c6c6f, 0x01616e67656c6f, 0x01616e676f6c617265,
   0x01616e677573746f, 0x01616e696d61, 0x01616e6e6567617265, 0x01616e6e696461746f,
   0x01616e6e6f, 0x01616e6e756e63696f, 0x01616e6f6e696d6f, 0x01616e74696369706f,
   0x01616e7a69, 0x016170617469636f, 0x016170657274757261, 0x0161706f6465,
   0x016170706172697265, 0x01617070657469746f, 0x016170706f6767696f, 0x01617070726f646f,
   0x01617070756e746f, 0x01617072696c65, 0x0161726162696361, 0x016172616368696465,
   0x01617261676f737461, 0x016172616c64696361, 0x016172616e63696f, 0x0161726174757261]

/-- Entries 128 to 191 of `italian` (include/cardano/bip39_dictionary.hpp:10332-12380): arazzo … badilata -/
def italian2 : List Nat :=
  [0x016172617a7a6f, 0x016172626974726f, 0x01617263686976696f, 0x0161726469746f,
   0x016172656e696c65, 0x01617267656e746f, 0x01617267696e65, 0x0161726775746f,
   0x0161726961, 0x0161726d6f6e6961, 0x0161726e657365, 0x01617272656461746f,
   0x01617272696e6761, 0x016172726f73746f, 0x01617273656e69636f, 0x016172736f,
   0x016172746566696365, 0x0161727a696c6c6f, 0x01617363697574746f, 0x016173636f6c746f,
   0x01617365707369, 0x01617365747469636f, 0x01617366616c746f, 0x016173696e6f,
   0x0161736f6c61, 0x01617370697261746f, 0x01617370726f, 0x01617373616767696f,
   0x0161737365, 0x016173736f6c75746f, 0x016173737572646f, 0x0161737461,
   0x01617374656e75746f, 0x01617374696365, 0x01617374726174746f, 0x016174617669636f,
   0x0161746569736d6f, 0x0161746f6d69636f, 0x0161746f6e6f, 0x01617474657361,
   0x016174746976617265, 0x016174746f726e6f, 0x016174747269746f, 0x0161747475616c65,
   0x01617573696c696f, 0x0161757374726961, 0x0161757469737461, 0x016175746f6e6f6d6f,
   0x01617574756e6e6f, 0x016176616e7a61746f, 0x016176657265, 0x01617676656e697265,
   0x0161767669736f, 0x016176766f6c67657265, 0x01617a696f6e65, 0x01617a6f746f,
   0x01617a7a696d6f, 0x01617a7a7572726f, 0x01626162656c65, 0x0162616363616e6f,
   0x01626163696e6f, 0x016261636f, 0x0162616465737361, 0x01626164696c617461]

/-- Entries 192 to 255 of `italian` (include/cardano/bip39_dictionary.hpp:10332-12380): bagnato … brama -/
def italian3 : List Nat :=
  [0x016261676e61746f, 0x016261697461, 0x0162616c636f6e65, 0x0162616c646f,
   0x0162616c656e61, 0x0162616c6c617461, 0x0162616c7a616e6f, 0x0162616d62696e6f,
   0x0162616e64697265, 0x01626172616f6e6461, 0x016261726261726f, 0x016261726361,
   0x0162617269746f6e6f, 0x016261726c756d65, 0x016261726f63636f, 0x01626173696c69636f,
   0x01626173736f, 0x016261746f737461, 0x016261747475746f, 0x016261756c65,
   0x0162617661, 0x016261766f7361, 0x01626563636f, 0x016265666661,
   0x0162656c67696f, 0x0162656c7661, 0x0162656e6461, 0x0162656e65766f6c65,
   0x0162656e69676e6f, 0x0162656e7a696e61, 0x0162657265, 0x016265726c696e61,
   0x0162657461, 0x01626962697461, 0x0162696369, 0x016269646f6e65,
   0x0162696669646f, 0x0162696761, 0x0162696c616e636961, 0x0162696d626f,
   0x0162696e6f636f6c6f, 0x0162696f6c6f676f, 0x01626970656465, 0x016269706f6c617265,
   0x0162697262616e7465, 0x016269727261, 0x01626973636f74746f, 0x016269736573746f,
   0x016269736e6f6e6e6f, 0x016269736f6e7465, 0x0162697374757269, 0x0162697a7a6172726f,
   0x01626c616e646f, 0x01626c61747461, 0x01626f6c6c69746f, 0x01626f6e696669636f,
   0x01626f72646f, 0x01626f73636f, 0x01626f74616e69636f, 0x01626f7474696e6f,
   0x01626f7a7a6f6c6f, 0x016272616363696f, 0x016272616469706f, 0x016272616d61]

/-- Entries 256 to 319 of `italian` (include/cardano/bip39_dictionary.hpp:10332-12380): branca … castello -/
def italian4 : List Nat :=
  [0x016272616e6361, 0x0162726176757261, 0x0162726574656c6c61, 0x01627265766574746f,
   0x016272657a7a61, 0x01627269676c6961, 0x016272696c6c616e7465, 0x016272696e64617265,
   0x0162726f63636f6c6f, 0x0162726f646f, 0x0162726f6e7a696e61, 0x016272756c6c6f,
   0x016272756e6f, 0x01627562626f6e65, 0x0162756361, 0x01627564696e6f,
   0x01627566666f6e65, 0x016275696f, 0x0162756c626f, 0x0162756f6e6f,
   0x016275726c6f6e65, 0x016275727261736361, 0x01627573736f6c61, 0x016275737461,
   0x016361646574746f, 0x0163616475636f, 0x0163616c616d61726f, 0x0163616c636f6c6f,
   0x0163616c65737365, 0x0163616c6962726f, 0x0163616c6d6f, 0x0163616c6f726961,
   0x0163616d62757361, 0x0163616d6572617461, 0x0163616d69636961, 0x0163616d6d696e6f,
   0x0163616d6f6c61, 0x0163616d70616c65, 0x0163616e617061, 0x0163616e64656c61,
   0x0163616e65, 0x0163616e696e6f, 0x0163616e6f74746f, 0x0163616e74696e61,
   0x01636170616365, 0x01636170656c6c6f, 0x0163617069746f6c6f, 0x016361706f6769726f,
   0x016361707065726f, 0x016361707261, 0x0163617073756c61, 0x016361726170616365,
   0x016361726361737361, 0x01636172646f, 0x0163617269736d61, 0x016361726f76616e61,
   0x01636172726574746f, 0x01636172746f6c696e61, 0x01636173616363696f, 0x0163617363617461,
   0x0163617365726d61, 0x016361736f, 0x01636173736f6e65, 0x0163617374656c6c6f]

/-- Entries 320 to 383 of `italian` (include/cardano/bip39_dictionary.hpp:10332-12380): casuale … conciso -/
def italian5 : List Nat :=
  [0x0163617375616c65, 0x0163617461737461, 0x01636174656e61, 0x0163617472616d65,
   0x01636175746f, 0x01636176696c6c6f, 0x016365646962696c65, 0x0163656472617461,
   0x01636566616c6f, 0x0163656c65627265, 0x0163656c6c756c617265, 0x0163656e61,
   0x0163656e6f6e65, 0x0163656e746573696d6f, 0x01636572616d696361, 0x0163657263617265,
   0x01636572746f, 0x01636572756d65, 0x0163657276656c6c6f, 0x016365736f6961,
   0x01636573706f, 0x016365746f, 0x016368656c61, 0x0163686961726f,
   0x01636869636361, 0x016368696564657265, 0x016368696d657261, 0x016368696e61,
   0x01636869727572676f, 0x016368697461727261, 0x016369616f, 0x016369636c69736d6f,
   0x0163696672617265, 0x016369676e6f, 0x0163696c696e64726f, 0x0163696f74746f6c6f,
   0x016369726361, 0x01636972726f7369, 0x016369747269636f, 0x01636974746164696e6f,
   0x0163697566666f, 0x0163697665747461, 0x01636976696c65, 0x01636c61737369636f,
   0x01636c696e696361, 0x01636c6f726f, 0x01636f63636f, 0x01636f646172646f,
   0x01636f64696365, 0x01636f6572656e7465, 0x01636f676e6f6d65, 0x01636f6c6c617265,
   0x01636f6c6d61746f, 0x01636f6c6f7265, 0x01636f6c706f736f, 0x01636f6c74697661746f,
   0x01636f6c7a61, 0x01636f6d61, 0x01636f6d657461, 0x01636f6d6d616e646f,
   0x01636f6d6f646f, 0x01636f6d7075746572, 0x01636f6d756e65, 0x01636f6e6369736f]

/-- Entries 384 to 447 of `italian` (include/cardano/bip39_dictionary.hpp:10332-12380): condurre … decennio -/
def italian6 : List Nat :=
  [0x01636f6e6475727265, 0x01636f6e6665726d61, 0x01636f6e67656c617265, 0x01636f6e69756765,
   0x01636f6e6e6573736f, 0x01636f6e6f7363657265, 0x01636f6e73756d6f, 0x01636f6e74696e756f,
   0x01636f6e7665676e6f, 0x01636f706572746f, 0x01636f70696f6e65, 0x01636f70706961,
   0x01636f7072696361706f, 0x01636f72617a7a61, 0x01636f7264617461, 0x01636f72696361746f,
   0x01636f726e696365, 0x01636f726f6c6c61, 0x01636f72706f, 0x01636f727265646f,
   0x01636f72736961, 0x01636f7274657365, 0x01636f736d69636f, 0x01636f7374616e7465,
   0x01636f7474757261, 0x01636f7661746f, 0x0163726174657265, 0x016372617661747461,
   0x0163726561746f, 0x0163726564657265, 0x016372656d6f736f, 0x016372657363697461,
   0x016372657461, 0x016372696365746f, 0x016372696e616c65, 0x016372697369,
   0x016372697469636f, 0x0163726f6365, 0x0163726f6e616361, 0x0163726f7374617461,
   0x016372756369616c65, 0x01637275736361, 0x01637563697265, 0x01637563756c6f,
   0x01637567696e6f, 0x0163756c6c61746f, 0x016375706f6c61, 0x0163757261746f7265,
   0x01637572736f7265, 0x01637572766f, 0x0163757363696e6f, 0x01637573746f6465,
   0x016461646f, 0x016461696e6f, 0x0164616c6d617461, 0x0164616d6572696e6f,
   0x0164616e69656c61, 0x0164616e6e6f736f, 0x0164616e7a617265, 0x0164617461746f,
   0x01646176616e7469, 0x016461767665726f, 0x016465627574746f, 0x01646563656e6e696f]

/-- Entries 448 to 511 of `italian` (include/cardano/bip39_dictionary.hpp:10332-12380): deciso … dono -/
def italian7 : List Nat :=
  [0x0164656369736f, 0x016465636c696e6f, 0x016465636f6c6c6f, 0x016465637265746f,
   0x01646564696361746f, 0x01646566696e69746f, 0x016465666f726d65, 0x016465676e6f,
   0x0164656c6567617265, 0x0164656c66696e6f, 0x0164656c6972696f, 0x0164656c7461,
   0x0164656d656e7a61, 0x0164656e6f7461746f, 0x0164656e74726f, 0x016465706f7369746f,
   0x016465726170617461, 0x016465726976617265, 0x016465726f6761, 0x0164657363726974746f,
   0x016465736572746f, 0x0164657369646572696f, 0x01646573756d657265, 0x0164657465727369766f,
   0x016465766f746f, 0x016469616d6574726f, 0x01646963656d627265, 0x0164696564726f,
   0x0164696665736f, 0x016469666675736f, 0x016469676572697265, 0x016469676974616c65,
   0x0164696c7576696f, 0x0164696e616d69636f, 0x0164696e6e616e7a69, 0x01646970696e746f,
   0x016469706c6f6d61, 0x016469706f6c6f, 0x016469726164617265, 0x0164697265,
   0x016469726f74746f, 0x0164697275706f, 0x016469736167696f, 0x01646973637265746f,
   0x0164697366617265, 0x0164697367656c6f, 0x01646973706f73746f, 0x0164697374616e7a61,
   0x01646973756d616e6f, 0x016469746f, 0x01646976616e6f, 0x01646976656c746f,
   0x016469766964657265, 0x016469766f7261746f, 0x01646f626c6f6e65, 0x01646f63656e7465,
   0x01646f67616e616c65, 0x01646f676d61, 0x01646f6c6365, 0x01646f6d61746f,
   0x01646f6d656e696361, 0x01646f6d696e617265, 0x01646f6e646f6c6f, 0x01646f6e6f]

/-- Entries 512 to 575 of `italian` (include/cardano/bip39_dictionary.hpp:10332-12380): dormire … erede -/
def italian8 : List Nat :=
  [0x01646f726d697265, 0x01646f7465, 0x01646f74746f7265, 0x01646f7675746f,
   0x01646f7a7a696e61, 0x01647261676f, 0x0164727569646f, 0x0164756262696f,
   0x016475626974617265, 0x01647563616c65, 0x0164756e61, 0x0164756f6d6f,
   0x016475706c696365, 0x01647572617475726f, 0x016562616e6f, 0x016563636573736f,
   0x016563636f, 0x0165636c69737369, 0x0165636f6e6f6d6961, 0x016564657261,
   0x01656469636f6c61, 0x016564696c65, 0x01656469746f726961, 0x0165647563617265,
   0x016567656d6f6e6961, 0x0165676c69, 0x0165676f69736d6f, 0x016567726567696f,
   0x01656c61626f7261746f, 0x01656c617267697265, 0x01656c6567616e7465, 0x01656c656e6361746f,
   0x01656c6574746f, 0x01656c6576617265, 0x01656c6669636f, 0x01656c696361,
   0x01656c6d6f, 0x01656c7361, 0x01656c75736f, 0x01656d616e61746f,
   0x01656d626c656d61, 0x01656d6573736f, 0x01656d69726f, 0x01656d6f7469766f,
   0x01656d6f7a696f6e65, 0x01656d70697269636f, 0x01656d756c6f, 0x01656e64656d69636f,
   0x01656e6475726f, 0x01656e6572676961, 0x01656e66617369, 0x01656e6f74656361,
   0x01656e7472617265, 0x01656e7a696d61, 0x0165706174697465, 0x016570696c6f676f,
   0x01657069736f64696f, 0x0165706f63616c65, 0x01657070757265, 0x0165717561746f7265,
   0x0165726172696f, 0x0165726261, 0x016572626f736f, 0x016572656465]

/-- Entries 576 to 639 of `italian` (include/cardano/bip39_dictionary.hpp:10332-12380): eremita … felpa -/
def italian9 : List Nat :=
  [0x016572656d697461, 0x0165726967657265, 0x0165726d657469636f, 0x0165726f65,
   0x0165726f7369766f, 0x01657272616e7465, 0x01657361676f6e6f, 0x016573616d65,
   0x016573616e696d65, 0x016573617564697265, 0x0165736361, 0x016573656d70696f,
   0x01657365726369746f, 0x016573696269746f, 0x0165736967656e7465, 0x016573697374657265,
   0x01657369746f, 0x0165736f6661676f, 0x0165736f727461746f, 0x0165736f736f,
   0x01657370616e736f, 0x01657370726573736f, 0x01657373656e7a61, 0x016573736f,
   0x0165737465736f, 0x01657374696d617265, 0x016573746f6e6961, 0x01657374726f736f,
   0x016573756c74617265, 0x016574696c69636f, 0x0165746e69636f, 0x016574727573636f,
   0x016574746f, 0x016575636c6964656f, 0x016575726f7061, 0x01657661736f,
   0x0165766964656e7a61, 0x016576697461746f, 0x0165766f6c75746f, 0x01657676697661,
   0x016661626272696361, 0x0166616363656e6461, 0x016661636869726f, 0x0166616c636f,
   0x0166616d69676c6961, 0x0166616e616c65, 0x0166616e66617261, 0x0166616e676f,
   0x0166616e7461736d61, 0x0166617265, 0x0166617266616c6c61, 0x01666172696e6f736f,
   0x016661726d61636f, 0x01666173636961, 0x01666173746f736f, 0x01666173756c6c6f,
   0x016661746963617265, 0x016661746f, 0x016661766f6c6f736f, 0x01666562627265,
   0x016665636f6c61, 0x0166656465, 0x0166656761746f, 0x0166656c7061]

/-- Entries 640 to 703 of `italian` (include/cardano/bip39_dictionary.hpp:10332-12380): feltro … frutta -/
def italian10 : List Nat :=
  [0x0166656c74726f, 0x0166656d6d696e61, 0x0166656e64657265, 0x0166656e6f6d656e6f,
   0x016665726d656e746f, 0x01666572726f, 0x0166657274696c65, 0x0166657373757261,
   0x016665737469766f, 0x016665747461, 0x01666575646f, 0x016669616261,
   0x0166696475636961, 0x0166696661, 0x01666967757261746f, 0x0166696c6f,
   0x0166696e616e7a61, 0x0166696e6573747261, 0x0166696e697265, 0x0166696f7265,
   0x0166697363616c65, 0x0166697369636f, 0x016669756d65, 0x01666c61636f6e65,
   0x01666c616d656e636f, 0x01666c65626f, 0x01666c656d6d61, 0x01666c6f7269646f,
   0x01666c75656e7465, 0x01666c756f726f, 0x01666f6269636f, 0x01666f636163636961,
   0x01666f636f736f, 0x01666f64657261746f, 0x01666f676c696f, 0x01666f6c617461,
   0x01666f6c636c6f7265, 0x01666f6c676f7265, 0x01666f6e64656e7465, 0x01666f6e657469636f,
   0x01666f6e6961, 0x01666f6e74616e61, 0x01666f726269746f, 0x01666f72636865747461,
   0x01666f7265737461, 0x01666f726d696361, 0x01666f726e61696f, 0x01666f726f,
   0x01666f7274657a7a61, 0x01666f727a617265, 0x01666f736661746f, 0x01666f73736f,
   0x01667261636173736f, 0x016672616e61, 0x016672617373696e6f, 0x0166726174656c6c6f,
   0x01667265636365747461, 0x016672656e617461, 0x0166726573636f, 0x01667269676f,
   0x0166726f6c6c696e6f, 0x0166726f6e6465, 0x0166727567616c65, 0x01667275747461]

/-- Entries 704 to 767 of `italian` (include/cardano/bip39_dictionary.hpp:10332-12380): fucilata … gobba -/
def italian11 : List Nat :=
  [0x01667563696c617461, 0x01667563736961, 0x0166756767656e7465, 0x0166756c6d696e65,
   0x0166756c766f, 0x0166756d616e7465, 0x0166756d6574746f, 0x0166756d6f736f,
   0x0166756e65, 0x0166756e7a696f6e65, 0x0166756f636f, 0x01667572626f,
   0x01667572676f6e65, 0x016675726f7265, 0x016675736f, 0x01667574696c65,
   0x016761626269616e6f, 0x016761666665, 0x0167616c6174656f, 0x0167616c6c696e61,
   0x0167616c6f70706f, 0x0167616d6265726f, 0x0167616d6d61, 0x01676172616e7a6961,
   0x01676172626f, 0x016761726f66616e6f, 0x016761727a6f6e65, 0x01676173646f74746f,
   0x016761736f6c696f, 0x01676173747269636f, 0x01676174746f, 0x0167617564696f,
   0x0167617a65626f, 0x0167617a7a656c6c61, 0x016765636f, 0x0167656c6174696e61,
   0x0167656c736f, 0x0167656d656c6c6f, 0x0167656d6d61746f, 0x0167656e65,
   0x0167656e69746f7265, 0x0167656e6e61696f, 0x0167656e6f7469706f, 0x01676572676f,
   0x01676865706172646f, 0x01676869616363696f, 0x016768697361, 0x016769616c6c6f,
   0x0167696c6461, 0x0167696e6570726f, 0x0167696f63617265, 0x0167696f69656c6c6f,
   0x0167696f726e6f, 0x0167696f7665, 0x0167697261746f, 0x016769726f6e65,
   0x0167697474617461, 0x0167697564697a696f, 0x016769757261746f, 0x0167697573746f,
   0x01676c6f62756c6f, 0x01676c7574696e65, 0x01676e6f6d6f, 0x01676f626261]

/-- Entries 768 to 831 of `italian` (include/cardano/bip39_dictionary.hpp:10332-12380): golf … incrocio -/
def italian12 : List Nat :=
  [0x01676f6c66, 0x01676f6d69746f, 0x01676f6d6d6f6e65, 0x01676f6e66696f,
   0x01676f6e6e61, 0x01676f7665726e6f, 0x0167726163696c65, 0x01677261646f,
   0x016772616669636f, 0x016772616d6d6f, 0x016772616e6465, 0x016772617474617265,
   0x01677261766f736f, 0x016772617a6961, 0x016772656361, 0x01677265676765,
   0x01677269666f6e65, 0x0167726967696f, 0x016772696e7a61, 0x0167726f747461,
   0x0167727570706f, 0x016775616461676e6f, 0x01677561696f, 0x016775616e746f,
   0x016775617264617265, 0x016775666f, 0x0167756964617265, 0x01696265726e61746f,
   0x0169636f6e61, 0x016964656e7469636f, 0x016964696c6c696f, 0x0169646f6c6f,
   0x0169647261, 0x0169647269636f, 0x016964726f67656e6f, 0x01696769656e65,
   0x0169676e61726f, 0x0169676e6f7261746f, 0x01696c617265, 0x01696c6c65736f,
   0x01696c6c6f6769636f, 0x01696c6c7564657265, 0x01696d62616c6c6f, 0x01696d62657675746f,
   0x01696d626f63636f, 0x01696d6275746f, 0x01696d6d616e65, 0x01696d6d6572736f,
   0x01696d6d6f6c61746f, 0x01696d706163636f, 0x01696d7065746f, 0x01696d706965676f,
   0x01696d706f72746f, 0x01696d70726f6e7461, 0x01696e616c617265, 0x01696e617263617265,
   0x01696e61747469766f, 0x01696e63616e746f, 0x01696e63656e64696f, 0x01696e6368696e6f,
   0x01696e63697369766f, 0x01696e636c75736f, 0x01696e636f6e74726f, 0x01696e63726f63696f]

/-- Entries 832 to 895 of `italian` (include/cardano/bip39_dictionary.hpp:10332-12380): incubo … lattuga -/
def italian13 : List Nat :=
  [0x01696e6375626f, 0x01696e646167696e65, 0x01696e646961, 0x01696e646f6c65,
   0x01696e656469746f, 0x01696e6661747469, 0x01696e66696c617265, 0x01696e666c6974746f,
   0x01696e67616767696f, 0x01696e6765676e6f, 0x01696e676c657365, 0x01696e676f72646f,
   0x01696e67726f73736f, 0x01696e6e6573636f, 0x01696e6f646f7265, 0x01696e6f6c7472617265,
   0x01696e6f6e6461746f, 0x01696e73616e6f, 0x01696e736574746f, 0x01696e7369656d65,
   0x01696e736f6e6e6961, 0x01696e73756c696e61, 0x01696e74617361746f, 0x01696e7465726f,
   0x01696e746f6e61636f, 0x01696e747569746f, 0x01696e756d6964697265, 0x01696e76616c69646f,
   0x01696e76656365, 0x01696e7669746f, 0x0169706572626f6c65, 0x0169706e6f7469636f,
   0x0169706f74657369, 0x01697070696361, 0x016972696465, 0x0169726c616e6461,
   0x0169726f6e69636f, 0x01697272696761746f, 0x016972726f72617265, 0x0169736f6c61746f,
   0x0169736f746f706f, 0x01697374657269636f, 0x01697374697475746f, 0x0169737472696365,
   0x016974616c6961, 0x0169746572617265, 0x016c616262726f, 0x016c61626972696e746f,
   0x016c61636361, 0x016c6163657261746f, 0x016c616372696d61, 0x016c6163756e61,
   0x016c6164646f7665, 0x016c61676f, 0x016c616d706f, 0x016c616e6365747461,
   0x016c616e7465726e61, 0x016c6172646f736f, 0x016c61726761, 0x016c6172696e6765,
   0x016c6173747261, 0x016c6174656e7a61, 0x016c6174696e6f, 0x016c617474756761]

/-- Entries 896 to 959 of `italian` (include/cardano/bip39_dictionary.hpp:10332-12380): lavagna … malinteso -/
def italian14 : List Nat :=
  [0x016c617661676e61, 0x016c61766f726f, 0x016c6567616c65, 0x016c65676765726f,
   0x016c656d626f, 0x016c656e74657a7a61, 0x016c656e7a61, 0x016c656f6e65,
   0x016c65707265, 0x016c657369766f, 0x016c65737361746f, 0x016c6573746f,
   0x016c6574746572616c65, 0x016c657661, 0x016c6576696761746f, 0x016c696265726f,
   0x016c69646f, 0x016c69657669746f, 0x016c696c6c61, 0x016c696d6174757261,
   0x016c696d6974617265, 0x016c696d7069646f, 0x016c696e65617265, 0x016c696e677561,
   0x016c69717569646f, 0x016c697261, 0x016c6972696361, 0x016c69736361,
   0x016c697465, 0x016c69746967696f, 0x016c6976726561, 0x016c6f63616e6461,
   0x016c6f6465, 0x016c6f67696361, 0x016c6f6d62617265, 0x016c6f6e647261,
   0x016c6f6e6765766f, 0x016c6f7175616365, 0x016c6f72656e7a6f, 0x016c6f746f,
   0x016c6f747465726961, 0x016c756365, 0x016c7563696461746f, 0x016c756d616361,
   0x016c756d696e6f736f, 0x016c756e676f, 0x016c75706f, 0x016c7570706f6c6f,
   0x016c7573696e6761, 0x016c7573736f, 0x016c7574746f, 0x016d61636162726f,
   0x016d61636368696e61, 0x016d616365726f, 0x016d6163696e61746f, 0x016d6164616d61,
   0x016d616769636f, 0x016d61676c6961, 0x016d61676e657465, 0x016d6167726f,
   0x016d61696f6c696361, 0x016d616c6166656465, 0x016d616c677261646f, 0x016d616c696e7465736f]

/-- Entries 960 to 1023 of `italian` (include/cardano/bip39_dictionary.hpp:10332-12380): malsano … mirino -/
def italian15 : List Nat :=
  [0x016d616c73616e6f, 0x016d616c746f, 0x016d616c756d6f7265, 0x016d616e61,
   0x016d616e636961, 0x016d616e646f726c61, 0x016d616e6769617265, 0x016d616e69666573746f,
   0x016d616e6e61726f, 0x016d616e6f767261, 0x016d616e7361726461, 0x016d616e74696465,
   0x016d616e756272696f, 0x016d61707061, 0x016d617261746f6e61, 0x016d617263697265,
   0x016d617265747461, 0x016d61726d6f, 0x016d6172737570696f, 0x016d61736368657261,
   0x016d617373616961, 0x016d617374696e6f, 0x016d617465726173736f, 0x016d61747269636f6c61,
   0x016d6174746f6e65, 0x016d617475726f, 0x016d617a75726361, 0x016d65616e64726f,
   0x016d656363616e69636f, 0x016d6563656e617465, 0x016d65646573696d6f, 0x016d65646974617265,
   0x016d656761, 0x016d656c61737361, 0x016d656c6973, 0x016d656c6f646961,
   0x016d656e696e6765, 0x016d656e6f, 0x016d656e736f6c61, 0x016d6572637572696f,
   0x016d6572656e6461, 0x016d65726c6f, 0x016d65736368696e6f, 0x016d657365,
   0x016d657373657265, 0x016d6573746f6c6f, 0x016d6574616c6c6f, 0x016d65746f646f,
   0x016d657474657265, 0x016d6961676f6c617265, 0x016d696361, 0x016d6963656c696f,
   0x016d696368656c65, 0x016d6963726f626f, 0x016d69646f6c6c6f, 0x016d69656c65,
   0x016d69676c696f7265, 0x016d696c616e6f, 0x016d696c697465, 0x016d696d6f7361,
   0x016d696e6572616c65, 0x016d696e69, 0x016d696e6f7265, 0x016d6972696e6f]

/-- Entries 1024 to 1087 of `italian` (include/cardano/bip39_dictionary.hpp:10332-12380): mirtillo … naviglio -/
def italian16 : List Nat :=
  [0x016d697274696c6c6f, 0x016d697363656c61, 0x016d697373697661, 0x016d6973746f,
   0x016d69737572617265, 0x016d6974657a7a61, 0x016d69746967617265, 0x016d69747261,
   0x016d697474656e7465, 0x016d6e656d6f6e69636f, 0x016d6f64656c6c6f, 0x016d6f646966696361,
   0x016d6f64756c6f, 0x016d6f67616e6f, 0x016d6f67696f, 0x016d6f6c65,
   0x016d6f6c6f73736f, 0x016d6f6e61737465726f, 0x016d6f6e636f, 0x016d6f6e64696e61,
   0x016d6f6e65746172696f, 0x016d6f6e696c65, 0x016d6f6e6f746f6e6f, 0x016d6f6e736f6e65,
   0x016d6f6e7461746f, 0x016d6f6e7669736f, 0x016d6f7261, 0x016d6f7264657265,
   0x016d6f7273696361746f, 0x016d6f7374726f, 0x016d6f74697661746f, 0x016d6f746f73656761,
   0x016d6f74746f, 0x016d6f76656e7a61, 0x016d6f76696d656e746f, 0x016d6f7a7a6f,
   0x016d75636361, 0x016d75636f7361, 0x016d75666661, 0x016d7567686574746f,
   0x016d75676e61696f, 0x016d756c6174746f, 0x016d756c696e656c6c6f, 0x016d756c7469706c6f,
   0x016d756d6d6961, 0x016d756e746f, 0x016d756f76657265, 0x016d7572616c65,
   0x016d757361, 0x016d7573636f6c6f, 0x016d7573696361, 0x016d757465766f6c65,
   0x016d75746f, 0x016e61626162626f, 0x016e61667461, 0x016e616e6f6d6574726f,
   0x016e61726369736f, 0x016e6172696365, 0x016e61727261746f, 0x016e617363657265,
   0x016e61737472617265, 0x016e61747572616c65, 0x016e617574696361, 0x016e617669676c696f]

/-- Entries 1088 to 1151 of `italian` (include/cardano/bip39_dictionary.hpp:10332-12380): nebulosa … oltre -/
def italian17 : List Nat :=
  [0x016e6562756c6f7361, 0x016e6563726f7369, 0x016e6567617469766f, 0x016e65676f7a696f,
   0x016e656d6d656e6f, 0x016e656f66697461, 0x016e65726574746f, 0x016e6572766f,
   0x016e657373756e6f, 0x016e657474756e6f, 0x016e65757472616c65, 0x016e657665,
   0x016e6576726f7469636f, 0x016e696363686961, 0x016e696e6661, 0x016e697469646f,
   0x016e6f62696c65, 0x016e6f6369766f, 0x016e6f646f, 0x016e6f6d65,
   0x016e6f6d696e61, 0x016e6f726469636f, 0x016e6f726d616c65, 0x016e6f72766567657365,
   0x016e6f737472616e6f, 0x016e6f74617265, 0x016e6f74697a6961, 0x016e6f747475726e6f,
   0x016e6f76656c6c61, 0x016e75636c656f, 0x016e756c6c61, 0x016e756d65726f,
   0x016e756f766f, 0x016e757472697265, 0x016e75766f6c61, 0x016e757a69616c65,
   0x016f617369, 0x016f62626564697265, 0x016f62626c69676f, 0x016f62656c6973636f,
   0x016f626c696f, 0x016f626f6c6f, 0x016f62736f6c65746f, 0x016f63636173696f6e65,
   0x016f636368696f, 0x016f63636964656e7465, 0x016f63636f7272657265, 0x016f6363756c74617265,
   0x016f637261, 0x016f63756c61746f, 0x016f646965726e6f, 0x016f646f72617265,
   0x016f666665727461, 0x016f666672697265, 0x016f666675736361746f, 0x016f67676574746f,
   0x016f676769, 0x016f676e756e6f, 0x016f6c616e64657365, 0x016f6c666174746f,
   0x016f6c6961746f, 0x016f6c697661, 0x016f6c6f6772616d6d61, 0x016f6c747265]

/-- Entries 1152 to 1215 of `italian` (include/cardano/bip39_dictionary.hpp:10332-12380): omaggio … palazzina -/
def italian18 : List Nat :=
  [0x016f6d616767696f, 0x016f6d62656c69636f, 0x016f6d627261, 0x016f6d656761,
   0x016f6d697373696f6e65, 0x016f6e646f736f, 0x016f6e657265, 0x016f6e696365,
   0x016f6e6e69766f726f, 0x016f6e6f7265766f6c65, 0x016f6e7461, 0x016f70657261746f,
   0x016f70696e696f6e65, 0x016f70706f73746f, 0x016f7261636f6c6f, 0x016f7261666f,
   0x016f7264696e65, 0x016f7265636368696e6f, 0x016f726566696365, 0x016f7266616e6f,
   0x016f7267616e69636f, 0x016f726967696e65, 0x016f72697a7a6f6e7465, 0x016f726d61,
   0x016f726d656767696f, 0x016f726e617469766f, 0x016f726f6c6f67696f, 0x016f7272656e646f,
   0x016f72726962696c65, 0x016f7274656e736961, 0x016f7274696361, 0x016f727a617461,
   0x016f727a6f, 0x016f73617265, 0x016f73637572617265, 0x016f736d6f7369,
   0x016f73706564616c65, 0x016f7370697465, 0x016f737361, 0x016f73736964617265,
   0x016f737461636f6c6f, 0x016f737465, 0x016f74697465, 0x016f747265,
   0x016f747461676f6e6f, 0x016f7474696d6f, 0x016f74746f627265, 0x016f76616c65,
   0x016f76657374, 0x016f76696e6f, 0x016f76697061726f, 0x016f766f6369746f,
   0x016f76756e717565, 0x016f767669617265, 0x016f7a696f, 0x0170616363686574746f,
   0x0170616365, 0x01706163696669636f, 0x01706164656c6c61, 0x01706164726f6e65,
   0x017061657365, 0x0170616761, 0x01706167696e61, 0x0170616c617a7a696e61]

/-- Entries 1216 to 1279 of `italian` (include/cardano/bip39_dictionary.hpp:10332-12380): palesare … picozza -/
def italian19 : List Nat :=
  [0x0170616c6573617265, 0x0170616c6c69646f, 0x0170616c6f, 0x0170616c756465,
   0x0170616e646f726f, 0x0170616e6e656c6c6f, 0x0170616f6c6f, 0x0170616f6e617a7a6f,
   0x0170617072696361, 0x0170617261626f6c61, 0x0170617263656c6c61, 0x01706172657265,
   0x01706172676f6c6f, 0x0170617269, 0x017061726c61746f, 0x017061726f6c61,
   0x0170617274697265, 0x0170617276656e7a61, 0x017061727a69616c65, 0x017061737369766f,
   0x017061737469636361, 0x0170617461636361, 0x017061746f6c6f676961, 0x0170617474756d65,
   0x017061766f6e65, 0x017065636361746f, 0x01706564616c617265, 0x017065646f6e616c65,
   0x0170656767696f, 0x0170656c6f736f, 0x0170656e617265, 0x0170656e64696365,
   0x0170656e69736f6c61, 0x0170656e6e75746f, 0x0170656e6f6d627261, 0x0170656e73617265,
   0x0170656e746f6c61, 0x0170657065, 0x01706570697461, 0x0170657262656e65,
   0x01706572636f72736f, 0x01706572646f6e61746f, 0x01706572666f72617265, 0x0170657267616d656e61,
   0x01706572696f646f, 0x017065726d6573736f, 0x017065726e6f, 0x01706572706c6573736f,
   0x01706572737561736f, 0x01706572747567696f, 0x017065727661736f, 0x0170657361746f7265,
   0x0170657369737461, 0x017065736f, 0x0170657374696665726f, 0x01706574616c6f,
   0x0170657474696e65, 0x01706574756c616e7465, 0x0170657a7a6f, 0x0170696163657265,
   0x017069616e7461, 0x017069617474696e6f, 0x0170696363696e6f, 0x017069636f7a7a61]

/-- Entries 1280 to 1343 of `italian` (include/cardano/bip39_dictionary.hpp:10332-12380): piega … premere -/
def italian20 : List Nat :=
  [0x017069656761, 0x01706965747261, 0x017069666665726f, 0x0170696769616d61,
   0x017069676f6c696f, 0x01706967726f, 0x0170696c61, 0x0170696c696665726f,
   0x0170696c6c6f6c61, 0x0170696c6f7461, 0x0170696d70616e7465, 0x0170696e657461,
   0x0170696e6e61, 0x0170696e6f6c6f, 0x0170696f67676961, 0x0170696f6d626f,
   0x01706972616d696465, 0x01706972657469636f, 0x01706972697465, 0x017069726f6c697369,
   0x017069746f6e65, 0x0170697a7a69636f, 0x01706c616365626f, 0x01706c616e617265,
   0x01706c61736d61, 0x01706c6174616e6f, 0x01706c656e6172696f, 0x01706f6368657a7a61,
   0x01706f6465726f736f, 0x01706f6469736d6f, 0x01706f65736961, 0x01706f676769617265,
   0x01706f6c656e7461, 0x01706f6c69676f6e6f, 0x01706f6c6c696365, 0x01706f6c6d6f6e697465,
   0x01706f6c7065747461, 0x01706f6c736f, 0x01706f6c74726f6e61, 0x01706f6c76657265,
   0x01706f6d696365, 0x01706f6d6f646f726f, 0x01706f6e7465, 0x01706f706f6c6f736f,
   0x01706f726669646f, 0x01706f726f736f, 0x01706f72706f7261, 0x01706f727265,
   0x01706f7274617461, 0x01706f7361, 0x01706f73697469766f, 0x01706f73736573736f,
   0x01706f7374756c61746f, 0x01706f74617373696f, 0x01706f74657265, 0x017072616e7a6f,
   0x01707261737369, 0x0170726174696361, 0x01707265636c75736f, 0x0170726564696361,
   0x01707265666973736f, 0x01707265676961746f, 0x017072656c6965766f, 0x017072656d657265]

/-- Entries 1344 to 1407 of `italian` (include/cardano/bip39_dictionary.hpp:10332-12380): prenotare … reale -/
def italian21 : List Nat :=
  [0x017072656e6f74617265, 0x0170726570617261746f, 0x0170726573656e7a61, 0x01707265746573746f,
   0x0170726576616c736f, 0x017072696d61, 0x017072696e63697065, 0x017072697661746f,
   0x0170726f626c656d61, 0x0170726f63757261, 0x0170726f6475727265, 0x0170726f66756d6f,
   0x0170726f676574746f, 0x0170726f6c756e6761, 0x0170726f6d65737361, 0x0170726f6e6f6d65,
   0x0170726f706f737461, 0x0170726f726f6761, 0x0170726f7465736f, 0x0170726f7661,
   0x0170727564656e7465, 0x01707275676e61, 0x017072757269746f, 0x01707369636865,
   0x01707562626c69636f, 0x01707564696361, 0x01707567696c61746f, 0x017075676e6f,
   0x0170756c6365, 0x0170756c69746f, 0x0170756c73616e7465, 0x0170756e74617265,
   0x01707570617a7a6f, 0x01707570696c6c61, 0x017075726f, 0x0171756164726f,
   0x017175616c636f7361, 0x017175617369, 0x0171756572656c61, 0x0171756f7461,
   0x01726163636f6c746f, 0x01726164646f7070696f, 0x017261646963616c65, 0x01726164756e61746f,
   0x0172616666696361, 0x01726167617a7a6f, 0x01726167696f6e65, 0x017261676e6f,
   0x0172616d6172726f, 0x0172616d696e676f, 0x0172616d6f, 0x0172616e646167696f,
   0x0172616e746f6c617265, 0x0172617061746f, 0x01726170696e61, 0x01726170707265736f,
   0x017261736174757261, 0x0172617363686961746f, 0x01726173656e7465, 0x017261737365676e61,
   0x017261737472656c6c6f, 0x0172617461, 0x0172617676656475746f, 0x017265616c65]

/-- Entries 1408 to 1471 of `italian` (include/cardano/bip39_dictionary.hpp:10332-12380): recepire … ripieno -/
def italian22 : List Nat :=
  [0x017265636570697265, 0x01726563696e746f, 0x017265636c757461, 0x017265636f6e6469746f,
   0x01726563757065726f, 0x017265646469746f, 0x01726564696d657265, 0x01726567616c61746f,
   0x01726567697374726f, 0x017265676f6c61, 0x01726567726573736f, 0x0172656c617a696f6e65,
   0x0172656d617265, 0x0172656d6f746f, 0x0172656e6e61, 0x017265706c696361,
   0x0172657072696d657265, 0x017265707574617265, 0x0172657361, 0x017265736964656e7465,
   0x01726573706f6e736f, 0x01726573746175726f, 0x0172657465, 0x01726574696e61,
   0x017265746f72696361, 0x01726574746966696361, 0x017265766f6361746f, 0x017269617373756e746f,
   0x017269626164697265, 0x01726962656c6c65, 0x0172696272657a7a6f, 0x017269636172696361,
   0x01726963636f, 0x017269636576657265, 0x0172696369636c61746f, 0x017269636f72646f,
   0x0172696372656475746f, 0x0172696469636f6c6f, 0x0172696475727265, 0x017269666173617265,
   0x017269666c6573736f, 0x017269666f726d61, 0x017269667567696f, 0x01726967617265,
   0x0172696765747461746f, 0x0172696768656c6c6f, 0x0172696c61737361746f, 0x0172696c657661746f,
   0x0172696d616e657265, 0x0172696d62616c7a6f, 0x0172696d6564696f, 0x0172696d6f726368696f,
   0x0172696e617363697461, 0x0172696e6361726f, 0x0172696e666f727a6f, 0x0172696e6e6f766f,
   0x0172696e6f6d61746f, 0x0172696e73617669746f, 0x0172696e746f63636f, 0x0172696e756e636961,
   0x0172696e76656e697265, 0x01726970617261746f, 0x01726970657475746f, 0x0172697069656e6f]

/-- Entries 1472 to 1535 of `italian` (include/cardano/bip39_dictionary.hpp:10332-12380): riportare … salvo -/
def italian23 : List Nat :=
  [0x017269706f7274617265, 0x0172697072657361, 0x01726970756c697265, 0x01726973617461,
   0x017269736368696f, 0x0172697365727661, 0x017269736962696c65, 0x017269736f,
   0x01726973706574746f, 0x01726973746f726f, 0x01726973756c7461746f, 0x01726973766f6c746f,
   0x017269746172646f, 0x0172697465676e6f, 0x017269746d69636f, 0x01726974726f766f,
   0x017269756e696f6e65, 0x0172697661, 0x017269766572736f, 0x01726976696e63697461,
   0x017269766f6c746f, 0x0172697a6f6d61, 0x01726f6261, 0x01726f626f7469636f,
   0x01726f627573746f, 0x01726f63636961, 0x01726f636f, 0x01726f64616767696f,
   0x01726f64657265, 0x01726f6469746f7265, 0x01726f6769746f, 0x01726f6c6c696f,
   0x01726f6d616e7469636f, 0x01726f6d70657265, 0x01726f6e7a696f, 0x01726f736f6c617265,
   0x01726f73706f, 0x01726f74616e7465, 0x01726f746f6e646f, 0x01726f74756c61,
   0x01726f76657363696f, 0x01727562697a7a6f, 0x0172756272696361, 0x0172756761,
   0x0172756c6c696e6f, 0x0172756d696e65, 0x0172756d6f726f736f, 0x0172756f6c6f,
   0x0172757065, 0x0172757373617265, 0x017275737469636f, 0x0173616261746f,
   0x017361626269617265, 0x017361626f7461746f, 0x017361676f6d61, 0x0173616c6173736f,
   0x0173616c646174757261, 0x0173616c67656d6d61, 0x0173616c6976617265, 0x0173616c6d6f6e65,
   0x0173616c6f6e65, 0x0173616c74617265, 0x0173616c75746f, 0x0173616c766f]

/-- Entries 1536 to 1599 of `italian` (include/cardano/bip39_dictionary.hpp:10332-12380): sapere … scusare -/
def italian24 : List Nat :=
  [0x01736170657265, 0x0173617069646f, 0x017361706f7269746f, 0x017361726163656e6f,
   0x017361726361736d6f, 0x01736172746f, 0x01736173736f736f, 0x01736174656c6c697465,
   0x01736174697261, 0x017361746f6c6c6f, 0x0173617475726e6f, 0x01736176616e61,
   0x01736176696f, 0x0173617a6961746f, 0x017362616469676c696f, 0x017362616c7a6f,
   0x017362616e6361746f, 0x01736261727261, 0x017362617474657265, 0x0173626176617265,
   0x017362656e64617265, 0x01736269726369617265, 0x0173626c6f636361746f, 0x0173626f63636961746f,
   0x01736272696e617265, 0x017362727566666f6e65, 0x017362756666617265, 0x0173636162726f736f,
   0x0173636164656e7a61, 0x017363616c61, 0x017363616d6269617265, 0x017363616e64616c6f,
   0x01736361706f6c61, 0x0173636172736f, 0x0173636174656e617265, 0x017363617661746f,
   0x017363656c746f, 0x017363656e69636f, 0x017363657474726f, 0x01736368656461,
   0x0173636869656e61, 0x0173636961727061, 0x01736369656e7a61, 0x017363696e64657265,
   0x0173636970706f, 0x01736369726f70706f, 0x01736369766f6c6f, 0x0173636c6572617265,
   0x0173636f64656c6c61, 0x0173636f6c7069746f, 0x0173636f6d706172746f, 0x0173636f6e666f72746f,
   0x0173636f7072697265, 0x0173636f727461, 0x0173636f73736f6e65, 0x0173636f7a7a657365,
   0x01736372696261, 0x017363726f6c6c617265, 0x017363727574696e696f, 0x017363756465726961,
   0x017363756c746f7265, 0x017363756f6c61, 0x01736375726f, 0x0173637573617265]

/-- Entries 1600 to 1663 of `italian` (include/cardano/bip39_dictionary.hpp:10332-12380): sdebitare … sillaba -/
def italian25 : List Nat :=
  [0x01736465626974617265, 0x0173646f67616e617265, 0x01736563636174757261, 0x017365636f6e646f,
   0x01736564616e6f, 0x0173656767696f6c61, 0x017365676e616c61746f, 0x0173656772656761746f,
   0x017365677569746f, 0x0173656c636961746f, 0x0173656c65747469766f, 0x0173656c6c61,
   0x0173656c76616767696f, 0x0173656d61666f726f, 0x0173656d6272617265, 0x0173656d65,
   0x0173656d696e61746f, 0x0173656d707265, 0x0173656e736f, 0x0173656e74697265,
   0x017365706f6c746f, 0x0173657175656e7a61, 0x01736572617461, 0x017365726261746f,
   0x01736572656e6f, 0x01736572696f, 0x0173657270656e7465, 0x017365727261676c696f,
   0x0173657276697265, 0x0173657374696e61, 0x017365746f6c61, 0x0173657474696d616e61,
   0x0173666163656c6f, 0x017366616c64617265, 0x017366616d61746f, 0x01736661727a6f736f,
   0x0173666174696361746f, 0x017366657261, 0x017366696461, 0x017366696c61746f,
   0x017366696e6765, 0x0173666f6361746f, 0x0173666f646572617265, 0x0173666f676f,
   0x0173666f6c74697265, 0x0173666f727a61746f, 0x017366726174746f, 0x0173667275747461746f,
   0x01736675676769746f, 0x017366756d617265, 0x01736675736f, 0x0173676162656c6c6f,
   0x01736761726261746f, 0x0173676f6e6669617265, 0x0173676f7262696f, 0x0173677261737361746f,
   0x017367756172646f, 0x01736962696c6f, 0x01736963636f6d65, 0x01736965727261,
   0x017369676c61, 0x017369676e6f7265, 0x0173696c656e7a696f, 0x0173696c6c616261]

/-- Entries 1664 to 1727 of `italian` (include/cardano/bip39_dictionary.hpp:10332-12380): simbolo … spazzola -/
def italian26 : List Nat :=
  [0x0173696d626f6c6f, 0x0173696d70617469636f, 0x0173696d756c61746f, 0x0173696e666f6e6961,
   0x0173696e676f6c6f, 0x0173696e697374726f, 0x0173696e6f, 0x0173696e74657369,
   0x0173696e75736f696465, 0x017369706172696f, 0x017369736d61, 0x01736973746f6c65,
   0x017369747561746f, 0x01736c69747461, 0x01736c6f676174757261, 0x01736c6f76656e6f,
   0x01736d61727269746f, 0x01736d656d6f7261746f, 0x01736d656e7469746f, 0x01736d6572616c646f,
   0x01736d696c7a6f, 0x01736d6f6e74617265, 0x01736d6f747461746f, 0x01736d75737361746f,
   0x01736e656c6c697265, 0x01736e65727661746f, 0x01736e6f646f, 0x01736f6262616c7a6f,
   0x01736f6272696f, 0x01736f63636f72736f, 0x01736f6369616c65, 0x01736f64616c65,
   0x01736f66666974746f, 0x01736f676e6f, 0x01736f6c6461746f, 0x01736f6c656e6e65,
   0x01736f6c69646f, 0x01736f6c6c617a7a6f, 0x01736f6c6f, 0x01736f6c7562696c65,
   0x01736f6c76656e7465, 0x01736f6d617469636f, 0x01736f6d6d61, 0x01736f6e6461,
   0x01736f6e6574746f, 0x01736f6e6e696665726f, 0x01736f70697265, 0x01736f707065736f,
   0x01736f707261, 0x01736f7267657265, 0x01736f72706173736f, 0x01736f727269736f,
   0x01736f72736f, 0x01736f7274656767696f, 0x01736f72766f6c61746f, 0x01736f737069726f,
   0x01736f737461, 0x01736f7474696c65, 0x017370616461, 0x017370616c6c61,
   0x017370617267657265, 0x01737061746f6c61, 0x0173706176656e746f, 0x017370617a7a6f6c61]

/-- Entries 1728 to 1791 of `italian` (include/cardano/bip39_dictionary.hpp:10332-12380): specie … sutura -/
def italian27 : List Nat :=
  [0x01737065636965, 0x0173706564697265, 0x01737065676e657265, 0x017370656c6174757261,
   0x0173706572616e7a61, 0x0173706573736f7265, 0x01737065747472616c65, 0x017370657a7a61746f,
   0x0173706961, 0x01737069676f6c6f736f, 0x017370696c6c61746f, 0x017370696e6f736f,
   0x0173706972616c65, 0x0173706c656e6469646f, 0x0173706f727469766f, 0x0173706f736f,
   0x01737072616e6761, 0x017370726563617265, 0x017370726f6e61746f, 0x01737072757a7a6f,
   0x017370756e74696e6f, 0x01737175696c6c6f, 0x01737261646963617265, 0x0173726f746f6c61746f,
   0x0173746162696c65, 0x0173746163636f, 0x01737461666661, 0x01737461676e617265,
   0x017374616d7061746f, 0x017374616e74696f, 0x01737461726e75746f, 0x0173746173657261,
   0x017374617475746f, 0x017374656c6f, 0x01737465707061, 0x01737465727a6f,
   0x017374696c6574746f, 0x017374696d61, 0x01737469727065, 0x0173746976616c65,
   0x017374697a7a6f736f, 0x0173746f6e61746f, 0x0173746f7269636f, 0x017374726170706f,
   0x01737472656761746f, 0x017374726964756c6f, 0x017374726f7a7a617265, 0x017374727574746f,
   0x017374756363617265, 0x01737475666f, 0x0173747570656e646f, 0x01737562656e74726f,
   0x01737563636f736f, 0x017375646f7265, 0x0173756767657269746f, 0x017375676f,
   0x0173756c74616e6f, 0x0173756f6e617265, 0x017375706572626f, 0x01737570706f72746f,
   0x0173757267656c61746f, 0x01737572726f6761746f, 0x01737573737572726f, 0x01737574757261]

/-- Entries 1792 to 1855 of `italian` (include/cardano/bip39_dictionary.hpp:10332-12380): svagare … tollerare -/
def italian28 : List Nat :=
  [0x0173766167617265, 0x0173766564657365, 0x01737665676c696f, 0x017376656c617265,
   0x017376656e75746f, 0x017376657a6961, 0x017376696c7570706f, 0x01737669737461,
   0x017376697a7a657261, 0x0173766f6c7461, 0x017376756f74617265, 0x017461626163636f,
   0x01746162756c61746f, 0x017461636369617265, 0x01746163697475726e6f, 0x0174616c65,
   0x0174616c69736d616e6f, 0x0174616d706f6e65, 0x0174616e6e696e6f, 0x0174617261,
   0x017461726469766f, 0x017461726761746f, 0x0174617269666661, 0x0174617270617265,
   0x01746172746172756761, 0x01746173746f, 0x017461747469636f, 0x0174617665726e61,
   0x017461766f6c617461, 0x0174617a7a61, 0x0174656361, 0x017465636e69636f,
   0x0174656c65666f6e6f, 0x0174656d65726172696f, 0x0174656d706f, 0x0174656d75746f,
   0x0174656e646f6e65, 0x0174656e65726f, 0x0174656e73696f6e65, 0x0174656e7461636f6c6f,
   0x0174656f72656d61, 0x017465726d65, 0x0174657272617a7a6f, 0x017465727a6574746f,
   0x0174657369, 0x0174657373657261746f, 0x017465737461746f, 0x01746574726f,
   0x01746574746f6961, 0x01746966617265, 0x01746967656c6c61, 0x0174696d62726f,
   0x0174696e746f, 0x0174697069636f, 0x017469706f677261666f, 0x01746972616767696f,
   0x017469726f, 0x01746974616e696f, 0x017469746f6c6f, 0x017469747562616e7465,
   0x0174697a696f, 0x0174697a7a6f6e65, 0x01746f6363617265, 0x01746f6c6c6572617265]

/-- Entries 1856 to 1919 of `italian` (include/cardano/bip39_dictionary.hpp:10332-12380): tolto … ulisse -/
def italian29 : List Nat :=
  [0x01746f6c746f, 0x01746f6d626f6c61, 0x01746f6d6f, 0x01746f6e666f,
   0x01746f6e73696c6c61, 0x01746f70617a696f, 0x01746f706f6c6f676961, 0x01746f707061,
   0x01746f726261, 0x01746f726e617265, 0x01746f72726f6e65, 0x01746f72746f7261,
   0x01746f7363616e6f, 0x01746f7373697265, 0x01746f73746174757261, 0x01746f74616e6f,
   0x01747261626f63636f, 0x0174726163686561, 0x0174726166696c61, 0x017472616765646961,
   0x017472616c63696f, 0x017472616d6f6e746f, 0x017472616e7369746f, 0x0174726170616e6f,
   0x01747261727265, 0x01747261736c6f636f, 0x01747261747461746f, 0x017472617665,
   0x0174726563636961, 0x017472656d6f6c696f, 0x0174726573706f6c6f, 0x017472696275746f,
   0x01747269636865636f, 0x01747269666f676c696f, 0x017472696c6c6f, 0x017472696e636561,
   0x017472696f, 0x017472697374657a7a61, 0x0174726974757261746f, 0x0174726976656c6c61,
   0x0174726f6d6261, 0x0174726f6e6f, 0x0174726f70706f, 0x0174726f74746f6c61,
   0x0174726f76617265, 0x01747275636361746f, 0x017475626174757261, 0x017475666661746f,
   0x0174756c6970616e6f, 0x0174756d756c746f, 0x0174756e69736961, 0x0174757262617265,
   0x017475726368696e6f, 0x0174757461, 0x01747574656c61, 0x017562696361746f,
   0x01756363656c6c6f, 0x0175636369736f7265, 0x017564697265, 0x017564697469766f,
   0x0175666661, 0x017566666963696f, 0x01756775616c65, 0x01756c69737365]

/-- Entries 1920 to 1983 of `italian` (include/cardano/bip39_dictionary.hpp:10332-12380): ultimato … vero -/
def italian30 : List Nat :=
  [0x01756c74696d61746f, 0x01756d616e6f, 0x01756d696c65, 0x01756d6f7269736d6f,
   0x01756e63696e6574746f, 0x01756e67657265, 0x01756e67686572657365, 0x01756e69636f726e6f,
   0x01756e6966696361746f, 0x01756e69736f6e6f, 0x01756e69746172696f, 0x01756e7465,
   0x01756f766f, 0x017570757061, 0x0175726167616e6f, 0x01757267656e7a61,
   0x0175726c6f, 0x017573616e7a61, 0x01757361746f, 0x0175736369746f,
   0x01757369676e6f6c6f, 0x017573757261696f, 0x017574656e73696c65, 0x017574696c697a7a6f,
   0x0175746f706961, 0x01766163616e7465, 0x0176616363696e61746f, 0x0176616761626f6e646f,
   0x017661676c6961746f, 0x0176616c616e6761, 0x0176616c676f, 0x0176616c69636f,
   0x0176616c6c65747461, 0x0176616c6f726f736f, 0x0176616c7574617265, 0x0176616c766f6c61,
   0x0176616d70617461, 0x0176616e67617265, 0x0176616e69746f736f, 0x0176616e6f,
   0x0176616e74616767696f, 0x0176616e76657261, 0x017661706f7265, 0x01766172616e6f,
   0x017661726361746f, 0x0176617269616e7465, 0x017661736361, 0x0176656465747461,
   0x017665646f7661, 0x0176656475746f, 0x017665676574616c65, 0x01766569636f6c6f,
   0x0176656c63726f, 0x0176656c696e61, 0x0176656c6c75746f, 0x0176656c6f6365,
   0x0176656e61746f, 0x0176656e64656d6d6961, 0x0176656e746f, 0x01766572616365,
   0x0176657262616c65, 0x01766572676f676e61, 0x017665726966696361, 0x017665726f]

/-- Entries 1984 to 2047 of `italian` (include/cardano/bip39_dictionary.hpp:10332-12380): verruca … zuppa -/
def italian31 : List Nat :=
  [0x0176657272756361, 0x01766572746963616c65, 0x0176657363696361, 0x0176657373696c6c6f,
   0x0176657374616c65, 0x017665746572616e6f, 0x0176657472696e61, 0x017665747573746f,
   0x017669616e64616e7465, 0x0176696272616e7465, 0x01766963656e6461, 0x0176696368696e676f,
   0x01766963696e616e7a61, 0x01766964696d617265, 0x01766967696c6961, 0x017669676e65746f,
   0x017669676f7265, 0x0176696c65, 0x0176696c6c616e6f, 0x0176696d696e69,
   0x0176696e6369746f7265, 0x0176696f6c61, 0x01766970657261, 0x01766972676f6c61,
   0x017669726f6c6f676f, 0x01766972756c656e746f, 0x01766973636f736f, 0x01766973696f6e65,
   0x01766973706f, 0x017669737375746f, 0x01766973757261, 0x0176697461,
   0x01766974656c6c6f, 0x0176697474696d61, 0x01766976616e6461, 0x0176697669646f,
   0x0176697a69617265, 0x01766f6365, 0x01766f6761, 0x01766f6c6174696c65,
   0x01766f6c657265, 0x01766f6c7065, 0x01766f726167696e65, 0x0176756c63616e6f,
   0x017a616d706f676e61, 0x017a616e6e61, 0x017a61707061746f, 0x017a617474657261,
   0x017a61766f727261, 0x017a656669726f, 0x017a656c616e7465, 0x017a656c6f,
   0x017a656e7a65726f, 0x017a657262696e6f, 0x017a69626574746f, 0x017a696e636f,
   0x017a6972636f6e65, 0x017a6974746f, 0x017a6f6c6c61, 0x017a6f7469636f,
   0x017a7563636865726f, 0x017a75666f6c6f, 0x017a756c75, 0x017a75707061]

/-- The table `italian` (include/cardano/bip39_dictionary.hpp:10332-12380). -/
def italian : List Nat :=
  italian0 ++ (italian1 ++ (italian2 ++ (italian3 ++ (italian4 ++ (italian5 ++ (italian6 ++ (italian7 ++ (italian8 ++ (italian9 ++ (italian10 ++ (italian11 ++ (italian12 ++ (italian13 ++ (italian14 ++ (italian15 ++ (italian16 ++ (italian17 ++ (italian18 ++ (italian19 ++ (italian20 ++ (italian21 ++ (italian22 ++ (italian23 ++ (italian24 ++ (italian25 ++ (italian26 ++ (italian27 ++ (italian28 ++ (italian29 ++ (italian30 ++ (italian31)))))))))))))))))))))))))))))))

end Cardano.Bip39
