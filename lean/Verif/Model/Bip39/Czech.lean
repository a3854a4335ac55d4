/-! Generated from include/cardano/bip39_dictionary.hpp:4182-6230 (the table `czech`).
Each word is written as one number: the byte 1 followed by the bytes of the word. -/

namespace Cardano.Bip39

/-- Entries 0 to 63 of `czech` (include/cardano/bip39_dictionary.hpp:4182-6230): abdikace … bicykl -/
def czech0 : List Nat :=
  [0x01616264696b616365, 0x0161626563656461, 0x01616472657361, 0x01616772657365,
   0x01616b6365, 0x01616b746f766b61, 0x01616c656a, 0x01616c6b6f686f6c,
   0x01616d707574616365, 0x01616e616e6173, 0x01616e64756c6b61, 0x01616e656b646f7461,
   0x01616e6b657461, 0x01616e74696b61, 0x01616e756c6f766174, 0x016172636861,
   0x0161726f67616e6365, 0x01617366616c74, 0x016173697374656e74, 0x016173706972616365,
   0x016173746d61, 0x01617374726f6e6f6d, 0x0161746c6173, 0x0161746c6574696b61,
   0x0161746f6c, 0x016175746f627573, 0x01617a796c, 0x016261626b61,
   0x01626163686f72, 0x01626163696c, 0x01626163756c6b61, 0x016261646174656c,
   0x01626167657461, 0x0162616772, 0x016261686e6f, 0x0162616b7465726965,
   0x0162616c616461, 0x0162616c65746b61, 0x0162616c6b6f6e, 0x0162616c6f6e656b,
   0x0162616c76616e, 0x0162616c7a61, 0x0162616d627573, 0x0162616e6b6f6d6174,
   0x01626172626172, 0x016261726574, 0x016261726d616e, 0x016261726f6b6f,
   0x016261727661, 0x0162617465726b61, 0x016261746f68, 0x016261766c6e61,
   0x0162617a616c6b61, 0x0162617a696c696b61, 0x0162617a756b61, 0x016265646e61,
   0x01626572616e, 0x01626573656461, 0x01626573746965, 0x016265746f6e,
   0x0162657a696e6b61, 0x0162657a6d6f63, 0x0162657a74616b, 0x01626963796b6c]

/-- Entries 64 to 127 of `czech` (include/cardano/bip39_dictionary.hpp:4182-6230): bidlo … burza -/
def czech1 : List Nat :=
  [0x016269646c6f, 0x0162696674656b, 0x0162696b696e79, 0x0162696c616e6365,
   0x0162696f67726166, 0x0162696f6c6f67, 0x016269747661, 0x0162697a6f6e,
   0x01626c61686f627974, 0x01626c61746f756368, 0x01626c65636861, 0x01626c6564756c65,
   0x01626c65736b, 0x01626c696b6174, 0x01626c697a6e61, 0x01626c6f6b6f766174,
   0x01626c6f75646974, 0x01626c7564, 0x01626f62656b, 0x01626f6272,
   0x01626f646c696e61, 0x01626f646e6f7574, 0x01626f6861746f7374, 0x01626f6a6b6f74,
   0x01626f6a6f766174, 0x01626f6b6f727973, 0x01626f6c657374, 0x01626f726563,
   0x01626f726f76696365, 0x01626f7461, 0x01626f7562656c, 0x01626f7563686174,
   0x01626f756461, 0x01626f756c65, 0x01626f75726174, 0x01626f786572,
   0x016272616461766b61, 0x016272616d626f7261, 0x016272616e6b61, 0x016272617472,
   0x01627265707461, 0x016272696b657461, 0x0162726b6f, 0x0162726c6f68,
   0x0162726f6e7a, 0x0162726f736b6576, 0x016272756e65746b61, 0x0162727573696e6b61,
   0x0162727a6461, 0x0162727a79, 0x016275626c696e61, 0x016275626e6f766174,
   0x01627563687461, 0x016275646974656c, 0x016275646b61, 0x016275646f7661,
   0x016275666574, 0x0162756a61726f7374, 0x0162756b76696365, 0x0162756c646f6b,
   0x0162756c7661, 0x0162756e6461, 0x0162756e6b72, 0x016275727a61]

/-- Entries 128 to 191 of `czech` (include/cardano/bip39_dictionary.hpp:4182-6230): butik … cirkus -/
def czech2 : List Nat :=
  [0x01627574696b, 0x016275766f6c, 0x0162757a6f6c61, 0x016279646c6574,
   0x0162796c696e61, 0x016279746f766b61, 0x01627a756b6f74, 0x01636170617274,
   0x0163617265766e61, 0x0163656472, 0x01636564756c65, 0x0163656a6368,
   0x0163656a6e, 0x0163656c61, 0x0163656c6572, 0x0163656c6b656d,
   0x0163656c6e696365, 0x0163656e696e61, 0x0163656e6e6f7374, 0x0163656e6f766b61,
   0x0163656e7472756d, 0x0163656e7a6f72, 0x01636573746f706973, 0x016365746b61,
   0x016368616c757061, 0x016368617061646c6f, 0x0163686172697461, 0x016368617461,
   0x016368656368746174, 0x016368656d6965, 0x0163686963686f74, 0x0163686972757267,
   0x0163686c6164, 0x0163686c656261, 0x0163686c75626974, 0x0163686d656c,
   0x0163686d757261, 0x0163686f626f74, 0x0163686f63686f6c, 0x0163686f646261,
   0x0163686f6c657261, 0x0163686f6d6f7574, 0x0163686f706974, 0x0163686f726f6261,
   0x0163686f76, 0x0163687261706f74, 0x016368726c6974, 0x0163687274,
   0x016368727570, 0x0163687469766f7374, 0x0163687564696e61, 0x01636875746e6174,
   0x016368766174, 0x01636876696c6b61, 0x016368766f7374, 0x016368796261,
   0x0163687973746174, 0x01636879746974, 0x01636962756c65, 0x016369676172657461,
   0x01636968656c6e61, 0x016369686c61, 0x0163696e6b6f74, 0x016369726b7573]

/-- Entries 192 to 255 of `czech` (include/cardano/bip39_dictionary.hpp:4182-6230): cisterna … doleva -/
def czech3 : List Nat :=
  [0x016369737465726e61, 0x01636974616365, 0x01636974727573, 0x0163697a696e6563,
   0x0163697a6f7374, 0x01636c6f6e61, 0x01636f6b6f6c6976, 0x01636f75766174,
   0x0163746974656c, 0x0163746e6f7374, 0x016375646e6f7374, 0x0163756b657461,
   0x0163756b72, 0x016375706f74, 0x016376616b6e6f7574, 0x016376616c,
   0x016376696b, 0x016376726b6f74, 0x0163796b6c69737461, 0x0164616c656b6f,
   0x01646172656261, 0x01646174656c, 0x01646174756d, 0x016463657261,
   0x01646562617461, 0x01646563686f766b61, 0x016465636962656c, 0x0164656669636974,
   0x016465666c616365, 0x0164656b6c, 0x0164656b726574, 0x0164656d6f6b726174,
   0x0164657072657365, 0x016465726279, 0x016465736b61, 0x01646574656b746976,
   0x0164696b6f6272617a, 0x0164696b746f766174, 0x0164696f6461, 0x016469706c6f6d,
   0x016469736b, 0x01646973706c656a, 0x0164697661646c6f, 0x016469766f6368,
   0x01646c616861, 0x01646c6f75686f, 0x01646c75686f706973, 0x01646e6573,
   0x01646f62726f, 0x01646f627974656b, 0x01646f63656e74, 0x01646f636875746974,
   0x01646f646e6573, 0x01646f686c6564, 0x01646f686f6461, 0x01646f687261,
   0x01646f6a656d, 0x01646f6a6e696365, 0x01646f6b6c6164, 0x01646f6b6f6c61,
   0x01646f6b746f72, 0x01646f6b756d656e74, 0x01646f6c6172, 0x01646f6c657661]

/-- Entries 256 to 319 of `czech` (include/cardano/bip39_dictionary.hpp:4182-6230): dolina … epos -/
def czech4 : List Nat :=
  [0x01646f6c696e61, 0x01646f6d61, 0x01646f6d696e616e74, 0x01646f6d6c75766974,
   0x01646f6d6f76, 0x01646f6e75746974, 0x01646f706164, 0x01646f706973,
   0x01646f706c6e6974, 0x01646f706f737564, 0x01646f70726f766f64, 0x01646f707573746974,
   0x01646f72617a6974, 0x01646f726f7374, 0x01646f7274, 0x01646f736168,
   0x01646f736c6f76, 0x01646f73746174656b, 0x01646f737564, 0x01646f73797461,
   0x01646f74617a, 0x01646f74656b, 0x01646f746b6e6f7574, 0x01646f75666174,
   0x01646f75746e6174, 0x01646f766f7a6365, 0x01646f7a616475, 0x01646f7a6e6174,
   0x01646f7a6f726365, 0x01647261686f7461, 0x016472616b, 0x016472616d6174696b,
   0x01647261766563, 0x016472617a65, 0x016472646f6c, 0x0164726f626e6f7374,
   0x0164726f6765726965, 0x0164726f7a64, 0x016472736e6f7374, 0x016472746974,
   0x0164727a6f7374, 0x01647562656e, 0x01647563686f766e6f, 0x01647564656b,
   0x0164756861, 0x016475686f766b61, 0x016475736974, 0x016475736e6f,
   0x016475746f7374, 0x0164766f6a696365, 0x0164766f726563, 0x0164796e616d6974,
   0x01656b6f6c6f67, 0x01656b6f6e6f6d6965, 0x01656c656b74726f6e, 0x01656c69707361,
   0x01656d61696c, 0x01656d697365, 0x01656d6f6365, 0x01656d7061746965,
   0x016570697a6f6461, 0x0165706f636861, 0x0165706f70656a, 0x0165706f73]

/-- Entries 320 to 383 of `czech` (include/cardano/bip39_dictionary.hpp:4182-6230): esej … guma -/
def czech5 : List Nat :=
  [0x016573656a, 0x016573656e6365, 0x0165736b6f727461, 0x0165736b796d6f,
   0x016574696b657461, 0x016575666f726965, 0x0165766f6c756365, 0x016578656b756365,
   0x0165786b75727a65, 0x016578706564696365, 0x016578706c6f7a65, 0x016578706f7274,
   0x0165787472616b74, 0x016661636b61, 0x0166616a666b61, 0x0166616b756c7461,
   0x0166616e6174696b, 0x0166616e74617a6965, 0x016661726d61636965, 0x016661766f726974,
   0x0166617a6f6c65, 0x016665646572616365, 0x0166656a65746f6e, 0x0166656e6b61,
   0x016669616c6b61, 0x016669677572616e74, 0x0166696c6f7a6f66, 0x0166696c7472,
   0x0166696e616e6365, 0x0166696e7461, 0x01666978616365, 0x01666a6f7264,
   0x01666c616e656c, 0x01666c697274, 0x01666c6f74696c61, 0x01666f6e64,
   0x01666f73666f72, 0x01666f7462616c, 0x01666f746b61, 0x01666f746f6e,
   0x016672616b6365, 0x01667265736b61, 0x0166726f6e7461, 0x0166756b6172,
   0x0166756e6b6365, 0x0166797a696b61, 0x0167616c656a65, 0x01676172616e74,
   0x0167656e6574696b61, 0x0167656f6c6f67, 0x0167696c6f74696e61, 0x01676c617a757261,
   0x01676c656a74, 0x01676f6c656d, 0x01676f6c6669737461, 0x01676f74696b61,
   0x0167726166, 0x016772616d6f666f6e, 0x016772616e756c65, 0x0167726570,
   0x016772696c, 0x0167726f67, 0x0167726f7465736b61, 0x0167756d61]

/-- Entries 384 to 447 of `czech` (include/cardano/bip39_dictionary.hpp:4182-6230): hadice … hostina -/
def czech6 : List Nat :=
  [0x01686164696365, 0x0168616472, 0x0168616c61, 0x0168616c656e6b61,
   0x0168616e6261, 0x0168616e6f706973, 0x016861726661, 0x0168617270756e61,
   0x0168617672616e, 0x016865626b6f7374, 0x0168656a6b616c, 0x0168656a6e6f,
   0x0168656a746d616e, 0x0168656b746172, 0x0168656c6d61, 0x0168656d61746f6d,
   0x016865726563, 0x016865726e61, 0x016865736c6f, 0x0168657a6b79,
   0x01686973746f72696b, 0x01686c61646f766b61, 0x01686c617369766b79, 0x01686c617661,
   0x01686c65646174, 0x01686c656e, 0x01686c6f6461766563, 0x01686c6f68,
   0x01686c6f75706f7374, 0x01686c746174, 0x01686c7562696e61, 0x01686c7563686f7461,
   0x01686d6174, 0x01686d6f7461, 0x01686d797a, 0x01686e6973,
   0x01686e6f6a69766f, 0x01686e6f7574, 0x01686f626c696e61, 0x01686f626f6a,
   0x01686f6368, 0x01686f64696e79, 0x01686f646c6174, 0x01686f646e6f7461,
   0x01686f646f766174, 0x01686f6a6e6f7374, 0x01686f6b656a, 0x01686f6c696e6b61,
   0x01686f6c6b61, 0x01686f6c7562, 0x01686f6d6f6c65, 0x01686f6e69746261,
   0x01686f6e6f72616365, 0x01686f72616c, 0x01686f726461, 0x01686f72697a6f6e74,
   0x01686f726b6f, 0x01686f726c69766563, 0x01686f726d6f6e, 0x01686f726e696e61,
   0x01686f726f736b6f70, 0x01686f727374766f, 0x01686f73706f6461, 0x01686f7374696e61]

/-- Entries 448 to 511 of `czech` (include/cardano/bip39_dictionary.hpp:4182-6230): hotovost … javor -/
def czech7 : List Nat :=
  [0x01686f746f766f7374, 0x01686f756261, 0x01686f7566, 0x01686f75706174,
   0x01686f75736b61, 0x01686f766f72, 0x01687261646261, 0x016872616e696365,
   0x01687261766f7374, 0x016872617a6461, 0x016872626f6c656b, 0x01687264696e61,
   0x016872646c6f, 0x016872646f7374, 0x0168726e656b, 0x0168726f626b61,
   0x0168726f6d616461, 0x0168726f74, 0x0168726f756461, 0x0168726f7a656e,
   0x01687273746b61, 0x01687275626f7374, 0x016872797a6174, 0x01687562656e6f7374,
   0x016875626e6f7574, 0x016875646261, 0x0168756b6f74, 0x0168756d72,
   0x01687573697461, 0x01687573746f7461, 0x0168766f7a64, 0x016879626e6f7374,
   0x0168796472616e74, 0x0168796769656e61, 0x0168796d6e61, 0x01687973746572696b,
   0x016964796c6b61, 0x0169686e6564, 0x01696b6f6e61, 0x01696c757a65,
   0x01696d756e697461, 0x01696e66656b6365, 0x01696e666c616365, 0x01696e6b61736f,
   0x01696e6f76616365, 0x01696e7370656b6365, 0x01696e7465726e6574, 0x01696e76616c696461,
   0x01696e766573746f72, 0x01696e7a65726365, 0x0169726f6e6965, 0x016a61626c6b6f,
   0x016a6163687461, 0x016a61686f6461, 0x016a616b6d696c65, 0x016a616b6f7374,
   0x016a616c6f766563, 0x016a616e746172, 0x016a61726d61726b, 0x016a61726f,
   0x016a6173616e, 0x016a61736e6f, 0x016a61746b61, 0x016a61766f72]

/-- Entries 512 to 575 of `czech` (include/cardano/bip39_dictionary.hpp:4182-6230): jazyk … kavalec -/
def czech8 : List Nat :=
  [0x016a617a796b, 0x016a6564696e6563, 0x016a65646c65, 0x016a65646e6174656c,
   0x016a65686c616e, 0x016a656b6f74, 0x016a656c656e, 0x016a656c69746f,
   0x016a656d6e6f7374, 0x016a656e6f6d, 0x016a6570696365, 0x016a657365746572,
   0x016a65766974, 0x016a657a646563, 0x016a657a65726f, 0x016a696e616b,
   0x016a696e6479, 0x016a696e6f6368, 0x016a69736b7261, 0x016a6973746f7461,
   0x016a6974726e696365, 0x016a697a7661, 0x016a6d656e6f766174, 0x016a6f67757274,
   0x016a75727461, 0x016b616261726574, 0x016b6162656c, 0x016b6162696e6574,
   0x016b6163686e61, 0x016b61646574, 0x016b616469646c6f, 0x016b6168616e,
   0x016b616a616b, 0x016b616a757461, 0x016b616b616f, 0x016b616b747573,
   0x016b616c616d697461, 0x016b616c686f7479, 0x016b616c696272, 0x016b616c6e6f7374,
   0x016b616d657261, 0x016b616d6b6f6c6976, 0x016b616d6e61, 0x016b616e6962616c,
   0x016b616e6f65, 0x016b616e746f72, 0x016b6170616c696e61, 0x016b6170656c61,
   0x016b617069746f6c61, 0x016b61706b61, 0x016b61706c65, 0x016b61706f7461,
   0x016b617072, 0x016b617075737461, 0x016b61707962617261, 0x016b6172616d656c,
   0x016b61726f746b61, 0x016b6172746f6e, 0x016b617361, 0x016b6174616c6f67,
   0x016b617465647261, 0x016b61756365, 0x016b61757a61, 0x016b6176616c6563]

/-- Entries 576 to 639 of `czech` (include/cardano/bip39_dictionary.hpp:4182-6230): kazajka … kontakt -/
def czech9 : List Nat :=
  [0x016b617a616a6b61, 0x016b617a657461, 0x016b617a69766f7374, 0x016b64656b6f6c6976,
   0x016b64657369, 0x016b65646c7562656e, 0x016b656d70, 0x016b6572616d696b61,
   0x016b696e6f, 0x016b6c6163656b, 0x016b6c616469766f, 0x016b6c616d,
   0x016b6c61706f74, 0x016b6c6173696b61, 0x016b6c61756e, 0x016b6c6563,
   0x016b6c656e6261, 0x016b6c65706174, 0x016b6c65736e6f7574, 0x016b6c6964,
   0x016b6c696d61, 0x016b6c69736e61, 0x016b6c6f626f756b, 0x016b6c6f6b616e,
   0x016b6c6f7061, 0x016b6c6f7562, 0x016b6c75626f766e61, 0x016b6c75736174,
   0x016b6c757a6b6f7374, 0x016b6d656e, 0x016b6d69746174, 0x016b6d6f7472,
   0x016b6e696861, 0x016b6e6f74, 0x016b6f616c696365, 0x016b6f6265726563,
   0x016b6f626b61, 0x016b6f626c696861, 0x016b6f62796c61, 0x016b6f636f7572,
   0x016b6f686f7574, 0x016b6f6a656e6563, 0x016b6f6b6f73, 0x016b6f6b74656a6c,
   0x016b6f6c617073, 0x016b6f6c656461, 0x016b6f6c697a65, 0x016b6f6c6f,
   0x016b6f6d616e646f, 0x016b6f6d657461, 0x016b6f6d696b, 0x016b6f6d6e617461,
   0x016b6f6d6f7261, 0x016b6f6d706173, 0x016b6f6d756e697461, 0x016b6f6e6174,
   0x016b6f6e63657074, 0x016b6f6e64696365, 0x016b6f6e6563, 0x016b6f6e66657365,
   0x016b6f6e67726573, 0x016b6f6e696e61, 0x016b6f6e6b757273, 0x016b6f6e74616b74]

/-- Entries 640 to 703 of `czech` (include/cardano/bip39_dictionary.hpp:4182-6230): konzerva … kulomet -/
def czech10 : List Nat :=
  [0x016b6f6e7a65727661, 0x016b6f70616e6563, 0x016b6f706965, 0x016b6f706e6f7574,
   0x016b6f70726f766b61, 0x016b6f7262656c, 0x016b6f72656b746f72, 0x016b6f726d69646c6f,
   0x016b6f726f70746576, 0x016b6f72707573, 0x016b6f72756e61, 0x016b6f7279746f,
   0x016b6f727a6574, 0x016b6f7361746563, 0x016b6f73746b61, 0x016b6f74656c,
   0x016b6f746c657461, 0x016b6f746f756c, 0x016b6f756b6174, 0x016b6f7570656c6e61,
   0x016b6f7573656b, 0x016b6f757a6c6f, 0x016b6f76626f6a, 0x016b6f7a61,
   0x016b6f7a6f726f68, 0x016b726162696365, 0x016b72616368, 0x016b72616a696e61,
   0x016b72616c6f766174, 0x016b7261736f706973, 0x016b726176617461, 0x016b7265646974,
   0x016b72656a636172, 0x016b7265736261, 0x016b726576657461, 0x016b72696b6574,
   0x016b726974696b, 0x016b72697a65, 0x016b726b61766563, 0x016b726d656c6563,
   0x016b726d69766f, 0x016b726f63616e, 0x016b726f6b, 0x016b726f6e696b61,
   0x016b726f706974, 0x016b726f757061, 0x016b726f766b61, 0x016b7274656b,
   0x016b72756861646c6f, 0x016b727570696365, 0x016b7275746f7374, 0x016b7276696e6b61,
   0x016b727963686c65, 0x016b7279707461, 0x016b72797374616c, 0x016b727974,
   0x016b75646c616e6b61, 0x016b756672, 0x016b756a6e6f7374, 0x016b756b6c61,
   0x016b756c616a6461, 0x016b756c696368, 0x016b756c6b61, 0x016b756c6f6d6574]

/-- Entries 704 to 767 of `czech` (include/cardano/bip39_dictionary.hpp:4182-6230): kultura … linoleum -/
def czech11 : List Nat :=
  [0x016b756c74757261, 0x016b756e61, 0x016b75706f64697675, 0x016b757274,
   0x016b75727a6f72, 0x016b7574696c, 0x016b76616c697461, 0x016b766173696e6b61,
   0x016b766573746f72, 0x016b796e6f6c6f67, 0x016b7973656c696e61, 0x016b7974617261,
   0x016b7974696365, 0x016b79746b61, 0x016b79746f766563, 0x016b797661646c6f,
   0x016c61627261646f72, 0x016c61636874616e, 0x016c61646e6f7374, 0x016c61696b,
   0x016c616b6f6d6563, 0x016c616d656c61, 0x016c616d7061, 0x016c616e6f766b61,
   0x016c6173696365, 0x016c61736f, 0x016c617374757261, 0x016c6174696e6b61,
   0x016c6176696e61, 0x016c65626b61, 0x016c65636b6479, 0x016c6564656e,
   0x016c65646e696365, 0x016c65646f766b61, 0x016c656476696e61, 0x016c6567656e6461,
   0x016c65676965, 0x016c656772616365, 0x016c65686365, 0x016c65686b6f7374,
   0x016c65686e6f7574, 0x016c656b74766172, 0x016c656e6f63686f64, 0x016c656e74696c6b61,
   0x016c6570656e6b61, 0x016c657069646c6f, 0x016c657461646c6f, 0x016c65746563,
   0x016c65746d6f, 0x016c65746f6b727568, 0x016c657668617274, 0x016c65766974616365,
   0x016c65766f626f6b, 0x016c69627261, 0x016c6963686f746b61, 0x016c69646f6a6564,
   0x016c6964736b6f7374, 0x016c69686f76696e61, 0x016c696a61766563, 0x016c696c656b,
   0x016c696d65746b61, 0x016c696e6965, 0x016c696e6b61, 0x016c696e6f6c65756d]

/-- Entries 768 to 831 of `czech` (include/cardano/bip39_dictionary.hpp:4182-6230): listopad … meloun -/
def czech12 : List Nat :=
  [0x016c6973746f706164, 0x016c6974696e61, 0x016c69746f766174, 0x016c6f6269737461,
   0x016c6f6469766f64, 0x016c6f67696b61, 0x016c6f676f706564, 0x016c6f6b616c697461,
   0x016c6f6b6574, 0x016c6f6d636f766174, 0x016c6f70617461, 0x016c6f70756368,
   0x016c6f7264, 0x016c6f736f73, 0x016c6f7472, 0x016c6f7564616c,
   0x016c6f7568, 0x016c6f756b61, 0x016c6f75736b6174, 0x016c6f766563,
   0x016c737469766f7374, 0x016c756365726e61, 0x016c756369666572, 0x016c756d70,
   0x016c75736b, 0x016c75737472616365, 0x016c76696365, 0x016c797261,
   0x016c7972696b61, 0x016c7973696e61, 0x016d6164616d, 0x016d61646c6f,
   0x016d616769737472, 0x016d616861676f6e, 0x016d616a6574656b, 0x016d616a6974656c,
   0x016d616a6f72697461, 0x016d616b616b, 0x016d616b6f76696365, 0x016d616b72656c61,
   0x016d616c6261, 0x016d616c696e61, 0x016d616c6f766174, 0x016d616c76696365,
   0x016d616d696e6b61, 0x016d616e646c65, 0x016d616e6b6f, 0x016d61726e6f7374,
   0x016d6173616b72, 0x016d61736b6f74, 0x016d61736f70757374, 0x016d6174696365,
   0x016d617472696b61, 0x016d61747572697461, 0x016d617a616e6563, 0x016d617a69766f,
   0x016d617a6c6974, 0x016d617a75726b61, 0x016d646c6f6261, 0x016d656368616e696b,
   0x016d65646974616365, 0x016d65646f76696e61, 0x016d656c617361, 0x016d656c6f756e]

/-- Entries 832 to 895 of `czech` (include/cardano/bip39_dictionary.hpp:4182-6230): mentolka … mumie -/
def czech13 : List Nat :=
  [0x016d656e746f6c6b61, 0x016d65746c61, 0x016d65746f6461, 0x016d657472,
   0x016d657a657261, 0x016d696772616365, 0x016d69686e6f7574, 0x016d6968756c65,
   0x016d696b696e61, 0x016d696b726f666f6e, 0x016d696c656e6563, 0x016d696c696d657472,
   0x016d696c6f7374, 0x016d696d696b61, 0x016d696e636f766e61, 0x016d696e69626172,
   0x016d696e6f6d6574, 0x016d696e756c6f7374, 0x016d69736b61, 0x016d69737472,
   0x016d69786f766174, 0x016d6c61646f7374, 0x016d6c6861, 0x016d6c686f76696e61,
   0x016d6c6f6b, 0x016d6c736174, 0x016d6c75766974, 0x016d6e696368,
   0x016d6e6f68656d, 0x016d6f62696c, 0x016d6f636e6f7374, 0x016d6f64656c6b61,
   0x016d6f646c69746261, 0x016d6f68796c61, 0x016d6f6b726f, 0x016d6f6c656b756c61,
   0x016d6f6d656e746b61, 0x016d6f6e6172636861, 0x016d6f6e6f6b6c, 0x016d6f6e737472756d,
   0x016d6f6e746f766174, 0x016d6f6e7a756e, 0x016d6f73617a, 0x016d6f736b7974,
   0x016d6f7374, 0x016d6f746976616365, 0x016d6f746f726b61, 0x016d6f74796b61,
   0x016d6f75636861, 0x016d6f7564726f7374, 0x016d6f7a61696b61, 0x016d6f7a656b,
   0x016d6f7a6f6c, 0x016d72616d6f72, 0x016d726176656e6563, 0x016d726b6576,
   0x016d7274766f6c61, 0x016d727a6574, 0x016d727a75746f7374, 0x016d73746974656c,
   0x016d75647263, 0x016d75666c6f6e, 0x016d756c6174, 0x016d756d6965]

/-- Entries 896 to 959 of `czech` (include/cardano/bip39_dictionary.hpp:4182-6230): munice … nemilost -/
def czech14 : List Nat :=
  [0x016d756e696365, 0x016d75736574, 0x016d7574616365, 0x016d757a65756d,
   0x016d757a696b616e74, 0x016d79736c69766563, 0x016d7a6461, 0x016e61626f75726174,
   0x016e61636879746174, 0x016e6164616365, 0x016e6164627974656b, 0x016e6164686f7a,
   0x016e61646f62726f, 0x016e6164706973, 0x016e61686c6173, 0x016e61686e6174,
   0x016e61686f64696c65, 0x016e61687261646974, 0x016e616976697461, 0x016e616a65646e6f75,
   0x016e616a6973746f, 0x016e616a6d6f7574, 0x016e616b6c6f6e6974, 0x016e616b6f6e6563,
   0x016e616b726d6974, 0x016e616c65766f, 0x016e616d617a6174, 0x016e616d6c75766974,
   0x016e616e6f6d657472, 0x016e616f6b6f, 0x016e616f70616b, 0x016e616f7374726f,
   0x016e617061646174, 0x016e617065766e6f, 0x016e61706c6e6974, 0x016e61706e6f7574,
   0x016e61706f736c6564, 0x016e6170726f73746f, 0x016e61726f646974, 0x016e6172756279,
   0x016e61727963686c6f, 0x016e617361646974, 0x016e6173656b6174, 0x016e61736c65706f,
   0x016e6173746174, 0x016e61746f6c696b, 0x016e6176656e656b, 0x016e6176726368,
   0x016e61767a646f7279, 0x016e617a766174, 0x016e656265, 0x016e6563686174,
   0x016e65636b79, 0x016e6564616c656b6f, 0x016e6564626174, 0x016e65647568,
   0x016e6567616365, 0x016e65686574, 0x016e65686f6461, 0x016e656a656e,
   0x016e656a70727665, 0x016e656b6c6964, 0x016e656c69626f7374, 0x016e656d696c6f7374]

/-- Entries 960 to 1023 of `czech` (include/cardano/bip39_dictionary.hpp:4182-6230): nemoc … obsah -/
def czech15 : List Nat :=
  [0x016e656d6f63, 0x016e656f63686f7461, 0x016e656f6e6b61, 0x016e65706f6b6f6a,
   0x016e65726f7374, 0x016e657276, 0x016e65736d79736c, 0x016e65736f756c6164,
   0x016e6574766f72, 0x016e6575726f6e, 0x016e6576696e61, 0x016e657a76796b6c65,
   0x016e69636f7461, 0x016e696a616b, 0x016e696b616d, 0x016e696b6479,
   0x016e696b6c, 0x016e696b746572616b, 0x016e6974726f, 0x016e6f636c6568,
   0x016e6f686176696365, 0x016e6f6d696e616365, 0x016e6f7261, 0x016e6f72656b,
   0x016e6f736974656c, 0x016e6f736e6f7374, 0x016e6f757a65, 0x016e6f76696e79,
   0x016e6f766f7461, 0x016e6f7a647261, 0x016e756461, 0x016e75646c65,
   0x016e75676574, 0x016e75746974, 0x016e75746e6f7374, 0x016e7574726965,
   0x016e796d6661, 0x016f62616c, 0x016f626172766974, 0x016f62617661,
   0x016f62646976, 0x016f626563, 0x016f6265686e6174, 0x016f62656a6d6f7574,
   0x016f62657a697461, 0x016f6268616a6f6261, 0x016f62696c6e696365, 0x016f626a61736e6974,
   0x016f626a656b74, 0x016f626b6c6f706974, 0x016f626c617374, 0x016f626c656b,
   0x016f626c696261, 0x016f626c6f6861, 0x016f626c756461, 0x016f626e6f73,
   0x016f626f6861746974, 0x016f626f6a656b, 0x016f626f7574, 0x016f6272617a6563,
   0x016f62726e61, 0x016f6272756261, 0x016f62727973, 0x016f62736168]

/-- Entries 1024 to 1087 of `czech` (include/cardano/bip39_dictionary.hpp:4182-6230): obsluha … okovy -/
def czech16 : List Nat :=
  [0x016f62736c756861, 0x016f62737461726174, 0x016f627576, 0x016f6276617a,
   0x016f6276696e6974, 0x016f62766f64, 0x016f6276796b6c65, 0x016f6279766174656c,
   0x016f627a6f72, 0x016f636173, 0x016f63656c, 0x016f63656e6974,
   0x016f63686c61646974, 0x016f63686f7461, 0x016f636872616e61, 0x016f6369746e6f7574,
   0x016f64626f6a, 0x016f64627974, 0x016f6463686f64, 0x016f6463697a6974,
   0x016f646562726174, 0x016f6465736c6174, 0x016f6465767a646174, 0x016f64657a7661,
   0x016f646861646365, 0x016f64686f646974, 0x016f646a6574, 0x016f646a696e7564,
   0x016f646b617a, 0x016f646b6f75706974, 0x016f646c6976, 0x016f646c756b61,
   0x016f646d6c6b61, 0x016f646f6c6e6f7374, 0x016f64706164, 0x016f64706973,
   0x016f64706c6f7574, 0x016f64706f72, 0x016f64707573746974, 0x016f6470796b6174,
   0x016f6472617a6b61, 0x016f64736f75646974, 0x016f6473747570, 0x016f6473756e,
   0x016f64746f6b, 0x016f64747564, 0x016f6476616861, 0x016f6476657461,
   0x016f64766f6c6174, 0x016f64767261636574, 0x016f647a6e616b, 0x016f66696e61,
   0x016f6673616a64, 0x016f686c6173, 0x016f686e69736b6f, 0x016f6872616461,
   0x016f68726f7a6974, 0x016f6872797a656b, 0x016f6b6170, 0x016f6b656e696365,
   0x016f6b6c696b61, 0x016f6b6e6f, 0x016f6b6f757a6c6974, 0x016f6b6f7679]

/-- Entries 1088 to 1151 of `czech` (include/cardano/bip39_dictionary.hpp:4182-6230): okrasa … oxid -/
def czech17 : List Nat :=
  [0x016f6b72617361, 0x016f6b726573, 0x016f6b7273656b, 0x016f6b727568,
   0x016f6b7570616e74, 0x016f6b75726b61, 0x016f6b75736974, 0x016f6c656a6e696e61,
   0x016f6c697a6f766174, 0x016f6d616b, 0x016f6d656c657461, 0x016f6d657a6974,
   0x016f6d6c6164696e61, 0x016f6d6c6f75766174, 0x016f6d6c757661, 0x016f6d796c,
   0x016f6e65686479, 0x016f70616b6f766174, 0x016f706173656b, 0x016f706572616365,
   0x016f70696365, 0x016f70696c6f7374, 0x016f7069736f766174, 0x016f706f7261,
   0x016f706f7a696365, 0x016f707261766475, 0x016f70726f7469, 0x016f72626974616c,
   0x016f72636865737472, 0x016f72676965, 0x016f726c696365, 0x016f726c6f6a,
   0x016f7274656c, 0x016f73616461, 0x016f7363686e6f7574, 0x016f73696b61,
   0x016f7369766f, 0x016f736c617661, 0x016f736c65706974, 0x016f736c6e6974,
   0x016f736c6f766974, 0x016f736e6f7661, 0x016f736f6261, 0x016f736f6c6974,
   0x016f7370616c6563, 0x016f7374656e, 0x016f737472616861, 0x016f7374756461,
   0x016f7374796368, 0x016f73766f6a6974, 0x016f7465706c6974, 0x016f7469736b,
   0x016f746f70, 0x016f7472686174, 0x016f74726c6f7374, 0x016f74726f6b,
   0x016f7472756279, 0x016f74766f72, 0x016f76616e6f7574, 0x016f766172,
   0x016f766573, 0x016f766c69766e6974, 0x016f766f6365, 0x016f786964]

/-- Entries 1152 to 1215 of `czech` (include/cardano/bip39_dictionary.hpp:4182-6230): ozdoba … placenta -/
def czech18 : List Nat :=
  [0x016f7a646f6261, 0x01706163686174656c, 0x0170616369656e74, 0x017061646f756368,
   0x017061686f72656b, 0x0170616b74, 0x0170616c616e6461, 0x0170616c6563,
   0x0170616c69766f, 0x0170616c756261, 0x0170616d666c6574, 0x0170616d6c73656b,
   0x0170616e656e6b61, 0x0170616e696b61, 0x0170616e6e61, 0x0170616e6f766174,
   0x0170616e7374766f, 0x0170616e746f666c65, 0x0170617072696b61, 0x017061726b657461,
   0x017061726f646965, 0x017061727461, 0x01706172756b61, 0x01706172796261,
   0x01706173656b61, 0x017061736976697461, 0x0170617374656c6b61, 0x01706174656e74,
   0x01706174726f6e61, 0x017061766f756b, 0x0170617a6e656874, 0x0170617a6f7572656b,
   0x017065636b61, 0x0170656461676f67, 0x0170656a73656b, 0x0170656b6c6f,
   0x0170656c6f746f6e, 0x0170656e616c7461, 0x0170656e6472656b, 0x0170656e7a65,
   0x0170657269736b6f70, 0x017065726f, 0x0170657374726f7374, 0x0170657461726461,
   0x01706574696365, 0x01706574726f6c656a, 0x017065766e696e61, 0x0170657865736f,
   0x017069616e69737461, 0x0170696861, 0x0170696a6176696365, 0x0170696b6c65,
   0x0170696b6e696b, 0x0170696c696e61, 0x0170696c6e6f7374, 0x0170696c756c6b61,
   0x0170696e7a657461, 0x01706970657461, 0x017069736174656c, 0x01706973746f6c65,
   0x0170697465766e61, 0x017069766e696365, 0x017069766f766172, 0x01706c6163656e7461]

/-- Entries 1216 to 1279 of `czech` (include/cardano/bip39_dictionary.hpp:4182-6230): plakat … pomlka -/
def czech19 : List Nat :=
  [0x01706c616b6174, 0x01706c616d656e, 0x01706c616e657461, 0x01706c617374696b61,
   0x01706c61746974, 0x01706c617669646c6f, 0x01706c617a, 0x01706c656368,
   0x01706c656d656e6f, 0x01706c656e7461, 0x01706c6573, 0x01706c657469766f,
   0x01706c6576656c, 0x01706c69766174, 0x01706c6e6974, 0x01706c6e6f,
   0x01706c6f636861, 0x01706c6f64696e61, 0x01706c6f6d6261, 0x01706c6f7574,
   0x01706c756b, 0x01706c796e, 0x01706f6261766974, 0x01706f627974,
   0x01706f63686f64, 0x01706f636974, 0x01706f637469766563, 0x01706f646174,
   0x01706f6463656e6974, 0x01706f646570736174, 0x01706f64686c6564, 0x01706f6469766974,
   0x01706f646b6c6164, 0x01706f646d616e6974, 0x01706f646e696b, 0x01706f646f6261,
   0x01706f64706f7261, 0x01706f6472617a, 0x01706f647374617461, 0x01706f64766f64,
   0x01706f647a696d, 0x01706f657a6965, 0x01706f68616e6b61, 0x01706f686e75746b61,
   0x01706f686f766f72, 0x01706f68726f6d61, 0x01706f687962, 0x01706f696e7461,
   0x01706f6a6973746b61, 0x01706f6a6d6f7574, 0x01706f6b617a6974, 0x01706f6b6c6573,
   0x01706f6b6f6a, 0x01706f6b726f6b, 0x01706f6b757461, 0x01706f6b796e,
   0x01706f6c65646e65, 0x01706f6c6962656b, 0x01706f6c6b6e6f7574, 0x01706f6c6f6861,
   0x01706f6c796e6f6d, 0x01706f6d616c75, 0x01706f6d696e6f7574, 0x01706f6d6c6b61]

/-- Entries 1280 to 1343 of `czech` (include/cardano/bip39_dictionary.hpp:4182-6230): pomoc … prodej -/
def czech20 : List Nat :=
  [0x01706f6d6f63, 0x01706f6d737461, 0x01706f6d79736c6574, 0x01706f6e6563686174,
   0x01706f6e6f726b61, 0x01706f6e75726f7374, 0x01706f7061646174, 0x01706f70656c,
   0x01706f706973656b, 0x01706f706c616368, 0x01706f70726f736974, 0x01706f70736174,
   0x01706f707564, 0x01706f7261646365, 0x01706f726365, 0x01706f726f64,
   0x01706f7275636861, 0x01706f727976, 0x01706f7361646974, 0x01706f736564,
   0x01706f73696c61, 0x01706f736b6f6b, 0x01706f736c616e6563, 0x01706f736f75646974,
   0x01706f73706f6c75, 0x01706f7374617661, 0x01706f737564656b, 0x01706f737970,
   0x01706f746168, 0x01706f746b616e, 0x01706f746c65736b, 0x01706f746f6d656b,
   0x01706f7472617661, 0x01706f74757061, 0x01706f74766f7261, 0x01706f756b617a,
   0x01706f75746f, 0x01706f757a64726f, 0x01706f76616861, 0x01706f7669646c61,
   0x01706f766c616b, 0x01706f766f7a, 0x01706f76726368, 0x01706f7673746174,
   0x01706f76796b, 0x01706f767a64656368, 0x01706f7a64726176, 0x01706f7a656d656b,
   0x01706f7a6e6174656b, 0x01706f7a6f72, 0x01706f7a766174, 0x01707261636f766174,
   0x01707261686f7279, 0x017072616b74696b61, 0x017072616c6573, 0x017072616f746563,
   0x01707261706f72656b, 0x017072617365, 0x01707261766461, 0x017072696e636970,
   0x0170726b6e6f, 0x0170726f6275646974, 0x0170726f63656e746f, 0x0170726f64656a]

/-- Entries 1344 to 1407 of `czech` (include/cardano/bip39_dictionary.hpp:4182-6230): profese … referent -/
def czech21 : List Nat :=
  [0x0170726f66657365, 0x0170726f687261, 0x0170726f6a656b74, 0x0170726f6c6f6d6974,
   0x0170726f6d696c65, 0x0170726f6e696b6174, 0x0170726f706164, 0x0170726f726f6b,
   0x0170726f736261, 0x0170726f746f6e, 0x0170726f7574656b, 0x0170726f76617a,
   0x017072736b61766b61, 0x0170727374656e, 0x01707275646b6f7374, 0x0170727574,
   0x01707276656b, 0x017072766f686f7279, 0x017073616e6563, 0x0170736f766f64,
   0x01707374727568, 0x017074616374766f, 0x0170756265727461, 0x0170756368,
   0x017075646c, 0x0170756b61766563, 0x0170756b6c696e61, 0x0170756b726c65,
   0x0170756c74, 0x0170756d7061, 0x0170756e63, 0x01707570656e,
   0x0170757361, 0x01707573696e6b61, 0x0170757374696e61, 0x017075746f766174,
   0x01707574796b61, 0x01707972616d696461, 0x017079736b, 0x01707974656c,
   0x01726163656b, 0x01726163686f74, 0x0172616469616365, 0x017261646e696365,
   0x017261646f6e, 0x0172616674, 0x017261676279, 0x0172616b657461,
   0x0172616b6f76696e61, 0x0172616d656e6f, 0x0172616d706f756368, 0x0172616e6465,
   0x01726172616368, 0x01726172697461, 0x017261736f766e61, 0x017261737472,
   0x017261746f6c657374, 0x0172617a616e6365, 0x0172617a69646c6f, 0x01726561676f766174,
   0x017265616b6365, 0x01726563657074, 0x01726564616b746f72, 0x017265666572656e74]

/-- Entries 1408 to 1471 of `czech` (include/cardano/bip39_dictionary.hpp:4182-6230): reflex … samec -/
def czech22 : List Nat :=
  [0x017265666c6578, 0x0172656a6e6f6b, 0x0172656b6c616d61, 0x0172656b6f7264,
   0x0172656b727574, 0x0172656b746f72, 0x017265707574616365, 0x01726576697a65,
   0x017265766d61, 0x017265766f6c766572, 0x0172657a65727661, 0x017269736b6f766174,
   0x0172697a696b6f, 0x01726f626f74696b61, 0x01726f646f6b6d656e, 0x01726f686f766b61,
   0x01726f6b6c65, 0x01726f6b6f6b6f, 0x01726f6d616e65746f, 0x01726f706f766f64,
   0x01726f7075636861, 0x01726f72656a73, 0x01726f736f6c, 0x01726f73746c696e61,
   0x01726f746d69737472, 0x01726f746f706564, 0x01726f74756e6461, 0x01726f7562656e6b61,
   0x01726f7563686f, 0x01726f7570, 0x01726f757261, 0x01726f76696e61,
   0x01726f766e696365, 0x01726f7a626f72, 0x01726f7a63686f64, 0x01726f7a646174,
   0x01726f7a657a6e6174, 0x01726f7a686f646365, 0x01726f7a696e6b61, 0x01726f7a6a657a64,
   0x01726f7a6b617a, 0x01726f7a6c6f6861, 0x01726f7a6d6172, 0x01726f7a706164,
   0x01726f7a72756368, 0x01726f7a736168, 0x01726f7a746f6b, 0x01726f7a756d,
   0x01726f7a766f64, 0x0172756272696b61, 0x017275636861646c6f, 0x0172756b6176696365,
   0x0172756b6f706973, 0x0172796261, 0x017279626f6c6f76, 0x01727963686c6f7374,
   0x017279646c6f, 0x0172797061646c6f, 0x01727974696e61, 0x0172797a6f7374,
   0x0173616469737461, 0x017361686174, 0x0173616b6f, 0x0173616d6563]

/-- Entries 1472 to 1535 of `czech` (include/cardano/bip39_dictionary.hpp:4182-6230): samizdat … skvrna -/
def czech23 : List Nat :=
  [0x0173616d697a646174, 0x0173616d6f7461, 0x0173616e69746b61, 0x0173617264696e6b61,
   0x01736173616e6b61, 0x01736174656c6974, 0x0173617a6261, 0x0173617a656e696365,
   0x0173626f72, 0x017363686f766174, 0x0173656272616e6b61, 0x01736563657365,
   0x0173656461646c6f, 0x01736564696d656e74, 0x017365646c6f, 0x017365686e6174,
   0x0173656a6d6f7574, 0x0173656b657261, 0x0173656b7461, 0x0173656b756e6461,
   0x0173656b766f6a65, 0x0173656d656e6f, 0x0173656e6f, 0x01736572766973,
   0x0173657361646974, 0x01736573686f7261, 0x017365736b6f6b, 0x017365736c6174,
   0x01736573747261, 0x017365737576, 0x0173657379706174, 0x017365746261,
   0x01736574696e61, 0x017365746b6174, 0x017365746e6f7574, 0x0173657472766174,
   0x017365766572, 0x0173657a6e616d, 0x0173686f6461, 0x017368726e6f7574,
   0x017369666f6e, 0x0173696c6e696365, 0x017369726b61, 0x017369726f74656b,
   0x017369727570, 0x0173697475616365, 0x01736b6166616e6472, 0x01736b616c69736b6f,
   0x01736b616e7a656e, 0x01736b617574, 0x01736b657074696b, 0x01736b696361,
   0x01736b6c61646261, 0x01736b6c656e696365, 0x01736b6c6f, 0x01736b6c757a,
   0x01736b6f6261, 0x01736b6f6b616e, 0x01736b6f726f, 0x01736b7269707461,
   0x01736b727a, 0x01736b7570696e61, 0x01736b766f7374, 0x01736b76726e61]

/-- Entries 1536 to 1599 of `czech` (include/cardano/bip39_dictionary.hpp:4182-6230): slabika … srdce -/
def czech24 : List Nat :=
  [0x01736c6162696b61, 0x01736c616469646c6f, 0x01736c616e696e61, 0x01736c617374,
   0x01736c61766e6f7374, 0x01736c65646f766174, 0x01736c65706563, 0x01736c657661,
   0x01736c657a696e61, 0x01736c6962, 0x01736c696e61, 0x01736c697a6e696365,
   0x01736c6f6e, 0x01736c6f7570656b, 0x01736c6f766f, 0x01736c756368,
   0x01736c756861, 0x01736c756e6365, 0x01736c75706b61, 0x01736c7a61,
   0x01736d6172616764, 0x01736d6574616e61, 0x01736d696c7374766f, 0x01736d6c6f757661,
   0x01736d6f67, 0x01736d726164, 0x01736d726b, 0x01736d72746b61,
   0x01736d7574656b, 0x01736d79736c, 0x01736e6164, 0x01736e616861,
   0x01736e6f62, 0x01736f626f7461, 0x01736f636861, 0x01736f646f766b61,
   0x01736f6b6f6c, 0x01736f706b61, 0x01736f747661, 0x01736f75626f6a,
   0x01736f75636974, 0x01736f75646365, 0x01736f75686c6173, 0x01736f756c6164,
   0x01736f756d72616b, 0x01736f757072617661, 0x01736f75736564, 0x01736f75746f6b,
   0x01736f757669736574, 0x017370616c6f766e61, 0x01737061736974656c, 0x0173706973,
   0x0173706c6176, 0x0173706f64656b, 0x0173706f6a656e6563, 0x0173706f6c75,
   0x0173706f6e7a6f72, 0x0173706f726e6f7374, 0x0173706f75737461, 0x01737072636861,
   0x0173707573746974, 0x017372616e6461, 0x017372617a, 0x017372646365]

/-- Entries 1600 to 1663 of `czech` (include/cardano/bip39_dictionary.hpp:4182-6230): srna … taktika -/
def czech25 : List Nat :=
  [0x0173726e61, 0x0173726e6563, 0x0173726f766e6174, 0x01737270656e,
   0x0173727374, 0x0173727562, 0x017374616e696365, 0x01737461726f737461,
   0x0173746174696b61, 0x01737461766261, 0x01737465686e6f, 0x017374657a6b61,
   0x0173746f646f6c61, 0x0173746f6c656b, 0x0173746f7061, 0x0173746f726e6f,
   0x0173746f75706174, 0x01737472616368, 0x017374726573, 0x01737472686e6f7574,
   0x017374726f6d, 0x01737472756e61, 0x01737475646e61, 0x01737475706e696365,
   0x017374766f6c, 0x017374796b, 0x017375626a656b74, 0x0173756274726f7079,
   0x01737563686172, 0x017375646f7374, 0x0173756b6e6f, 0x0173756e646174,
   0x0173756e6f7574, 0x01737572696b617461, 0x017375726f76696e61, 0x0173766168,
   0x017376616c7374766f, 0x017376657472, 0x01737661746261, 0x017376617a656b,
   0x01737669736c65, 0x0173766974656b, 0x0173766f626f6461, 0x0173766f6469646c6f,
   0x0173766f726b61, 0x017376726162, 0x0173796b61766b61, 0x0173796b6f74,
   0x0173796e656b, 0x0173796e6f766563, 0x017379706174, 0x017379706b6f7374,
   0x017379726f766f7374, 0x01737973656c, 0x017379746f7374, 0x017461626c65746b61,
   0x01746162756c65, 0x017461686f756e, 0x0174616a656d6e6f, 0x0174616a66756e,
   0x0174616a6761, 0x0174616a6974, 0x0174616a6e6f7374, 0x0174616b74696b61]

/-- Entries 1664 to 1727 of `czech` (include/cardano/bip39_dictionary.hpp:4182-6230): tamhle … tundra -/
def czech26 : List Nat :=
  [0x0174616d686c65, 0x0174616d706f6e, 0x0174616e636f766174, 0x0174616e6563,
   0x0174616e6b6572, 0x01746170657461, 0x01746176656e696e61, 0x0174617a6174656c,
   0x01746563686e696b61, 0x017465686479, 0x0174656b7574696e61, 0x0174656c65666f6e,
   0x0174656d6e6f7461, 0x0174656e64656e6365, 0x0174656e69737461, 0x0174656e6f72,
   0x017465706c6f7461, 0x017465706e61, 0x01746570727665, 0x0174657261706965,
   0x017465726d6f736b61, 0x0174657874696c, 0x01746963686f, 0x017469736b6f706973,
   0x01746974756c656b, 0x01746b61646c6563, 0x01746b616e696e61, 0x01746c61706b61,
   0x01746c65736b6174, 0x01746c756b6f74, 0x01746c757061, 0x01746d656c,
   0x01746f616c657461, 0x01746f70696e6b61, 0x01746f706f6c, 0x01746f727a6f,
   0x01746f756861, 0x01746f756c6563, 0x0174726164696365, 0x017472616b746f72,
   0x017472616d70, 0x017472617361, 0x017472617665727a61, 0x01747265666974,
   0x017472657374, 0x017472657a6f72, 0x017472686176696e61, 0x017472686c696e61,
   0x0174726f636875, 0x0174726f6a696365, 0x0174726f736b61, 0x0174726f756261,
   0x017472706365, 0x017472706974656c, 0x017472706b6f7374, 0x01747275626563,
   0x0174727563686c6974, 0x01747275686c696365, 0x0174727573, 0x017472766174,
   0x0174756479, 0x017475686e6f7574, 0x017475686f7374, 0x0174756e647261]

/-- Entries 1728 to 1791 of `czech` (include/cardano/bip39_dictionary.hpp:4182-6230): turista … vagon -/
def czech27 : List Nat :=
  [0x0174757269737461, 0x017475726e616a, 0x0174757a656d736b6f, 0x01747661726f68,
   0x0174766f726261, 0x01747672646f7374, 0x017476727a, 0x0174796772,
   0x0174796b6576, 0x0175626f686f7374, 0x0175626f7a65, 0x017562726174,
   0x017562726f7573656b, 0x017562727573, 0x01756279746f766e61, 0x017563686f,
   0x0175637469766f7374, 0x01756469766974, 0x0175687261646974, 0x01756a65646e6174,
   0x01756a6973746974, 0x01756a6d6f7574, 0x01756b617a6174656c, 0x01756b6c69646e6974,
   0x01756b6c6f6e6974, 0x01756b6f74766974, 0x01756b726f6a6974, 0x01756c696365,
   0x01756c697461, 0x01756c6f766974, 0x01756d797661646c6f, 0x01756e61766974,
   0x01756e69666f726d61, 0x01756e696b6e6f7574, 0x01757061646e6f7574, 0x0175706c61746e6974,
   0x0175706c796e6f7574, 0x0175706f75746174, 0x0175707261766974, 0x017572616e,
   0x017572617a6974, 0x01757365646e6f7574, 0x017573696c6f766174, 0x0175736d72746974,
   0x0175736e61646e6974, 0x0175736e6f7574, 0x0175736f75646974, 0x017573746c6174,
   0x01757374726e6f7574, 0x01757461686f766174, 0x0175746b6174, 0x0175746c756d6974,
   0x0175746f6e6f7574, 0x0175746f70656e6563, 0x017574726f75736974, 0x017576616c6974,
   0x0175766f6c6e6974, 0x0175766f7a6f766b61, 0x01757a647261766974, 0x01757a656c,
   0x01757a656e696e61, 0x01757a6c696e61, 0x01757a6e6174, 0x017661676f6e]

/-- Entries 1792 to 1855 of `czech` (include/cardano/bip39_dictionary.hpp:4182-6230): valcha … volno -/
def czech28 : List Nat :=
  [0x0176616c636861, 0x0176616c6f756e, 0x0176616e61, 0x0176616e64616c,
   0x0176616e696c6b61, 0x01766172616e, 0x0176617268616e79, 0x017661726f766174,
   0x017663656c6b75, 0x017663686f64, 0x0176646f7661, 0x01766564726f,
   0x017665676574616365, 0x0176656a6365, 0x0176656c626c6f7564, 0x0176656c65747268,
   0x0176656c6974656c, 0x0176656c6d6f63, 0x0176656c72796261, 0x0176656e6b6f76,
   0x01766572616e6461, 0x017665727a65, 0x01766573656c6b61, 0x017665736b727a65,
   0x017665736e696365, 0x01766573706f6475, 0x017665737461, 0x017665746572696e61,
   0x0176657665726b61, 0x0176696272616365, 0x017669636872, 0x01766964656f687261,
   0x01766964696e61, 0x017669646c65, 0x0176696c61, 0x0176696e696365,
   0x017669736574, 0x01766974616c697461, 0x0176697a65, 0x0176697a69746b61,
   0x01766a657a64, 0x01766b6c6164, 0x01766b7573, 0x01766c616a6b61,
   0x01766c616b, 0x01766c61736563, 0x01766c65766f, 0x01766c686b6f7374,
   0x01766c6976, 0x01766c6e6f766b61, 0x01766c6f75706174, 0x01766e75636f766174,
   0x01766e756b, 0x01766f6461, 0x01766f6469766f7374, 0x01766f646f7a6e616b,
   0x01766f647374766f, 0x01766f6a656e736b79, 0x01766f6a6e61, 0x01766f6a736b6f,
   0x01766f6c616e74, 0x01766f6c6261, 0x01766f6c6974, 0x01766f6c6e6f]

/-- Entries 1856 to 1919 of `czech` (include/cardano/bip39_dictionary.hpp:4182-6230): voskovka … vzchopit -/
def czech29 : List Nat :=
  [0x01766f736b6f766b61, 0x01766f7a69646c6f, 0x01766f7a6f766e61, 0x0176707261766f,
   0x01767261626563, 0x01767261636574, 0x0176726168, 0x017672617461,
   0x0176726261, 0x01767263686f6c656b, 0x017672686174, 0x01767273747661,
   0x01767274756c65, 0x01767361646974, 0x017673746f75706974, 0x017673747570,
   0x0176746970, 0x0176796261766974, 0x01767962726174, 0x01767963686f766174,
   0x017679646174, 0x017679647261, 0x017679666f746974, 0x017679686c65646174,
   0x017679686e6f7574, 0x017679686f646974, 0x017679687261646974, 0x0176796875626974,
   0x0176796a61736e6974, 0x0176796a6574, 0x0176796a6d6f7574, 0x0176796b6c6f706974,
   0x0176796b6f6e6174, 0x0176796c656b6174, 0x0176796d617a6174, 0x0176796d657a6974,
   0x0176796d697a6574, 0x0176796d79736c6574, 0x0176796e6563686174, 0x0176796e696b6174,
   0x0176796e75746974, 0x0176797061646174, 0x017679706c61746974, 0x017679707261766974,
   0x017679707573746974, 0x01767972617a6974, 0x017679726f766e6174, 0x01767972766174,
   0x017679736c6f766974, 0x017679736f6b6f, 0x017679737461766974, 0x01767973756e6f7574,
   0x0176797379706174, 0x0176797461736974, 0x0176797465736174, 0x017679747261746974,
   0x01767976696e6f7574, 0x017679766f6c6174, 0x017679767268656c, 0x0176797a646f626974,
   0x0176797a6e6174, 0x01767a616475, 0x01767a6275646974, 0x01767a63686f706974]

/-- Entries 1920 to 1983 of `czech` (include/cardano/bip39_dictionary.hpp:4182-6230): vzdor … zeman -/
def czech30 : List Nat :=
  [0x01767a646f72, 0x01767a64756368, 0x01767a647963686174, 0x01767a6573747570,
   0x01767a686c6564656d, 0x01767a6b617a, 0x01767a6c796b6174, 0x01767a6e696b,
   0x01767a6f72656b, 0x01767a706f757261, 0x01767a746168, 0x01767a74656b,
   0x0178796c6f666f6e, 0x017a6162726174, 0x017a616279646c6574, 0x017a6163686f766174,
   0x017a616461726d6f, 0x017a616475736974, 0x017a61666f756b6174, 0x017a61686c746974,
   0x017a61686f646974, 0x017a616872616461, 0x017a6168796e6f7574, 0x017a616a61746563,
   0x017a616a6574, 0x017a616a6973746974, 0x017a616b6c65706174, 0x017a616b6f75706974,
   0x017a616c65706974, 0x017a616d657a6974, 0x017a616d6f746174, 0x017a616d79736c6574,
   0x017a616e6563686174, 0x017a616e696b6174, 0x017a61706c61746974, 0x017a61706f6a6974,
   0x017a6170736174, 0x017a6172617a6974, 0x017a61737461766974, 0x017a6173756e6f7574,
   0x017a6174616a6974, 0x017a6174656d6e6974, 0x017a61746b6e6f7574, 0x017a61756a6d6f7574,
   0x017a6176616c6974, 0x017a6176656c6574, 0x017a6176696e6974, 0x017a61766f6c6174,
   0x017a617672746174, 0x017a617a766f6e6974, 0x017a6261766974, 0x017a6272757375,
   0x017a6275646f766174, 0x017a627974656b, 0x017a64616c656b61, 0x017a6461726d61,
   0x017a6461746e6f7374, 0x017a6469766f, 0x017a646f626974, 0x017a64726f6a,
   0x017a64766968, 0x017a64796d61646c6f, 0x017a656c656e696e61, 0x017a656d616e]

/-- Entries 1984 to 2047 of `czech` (include/cardano/bip39_dictionary.hpp:4182-6230): zemina … zvyk -/
def czech31 : List Nat :=
  [0x017a656d696e61, 0x017a6570746174, 0x017a657a616475, 0x017a657a646f6c61,
   0x017a6861746974, 0x017a686c746e6f7574, 0x017a686c75626f6b61, 0x017a686f746f766974,
   0x017a6872756261, 0x017a696d61, 0x017a696d6e696365, 0x017a6a656d6e6974,
   0x017a6b6c616d6174, 0x017a6b6f756d6174, 0x017a6b7261746b61, 0x017a6b756d61766b61,
   0x017a6c61746f, 0x017a6c65686b61, 0x017a6c6f6261, 0x017a6c6f6d,
   0x017a6c6f7374, 0x017a6c6f7a76796b, 0x017a6d61706f766174, 0x017a6d6172,
   0x017a6d6174656b, 0x017a6d696a65, 0x017a6d697a6574, 0x017a6d6f636e6974,
   0x017a6d6f64726174, 0x017a6d727a6c696e61, 0x017a6d75746f766174, 0x017a6e616b,
   0x017a6e616c6f7374, 0x017a6e616d656e6174, 0x017a6e6f7675, 0x017a6f6272617a6974,
   0x017a6f7461766974, 0x017a6f7562656b, 0x017a6f7566616c65, 0x017a706c6f646974,
   0x017a706f6d616c6974, 0x017a7072617661, 0x017a70726f73746974, 0x017a707275646b61,
   0x017a70727675, 0x017a72616461, 0x017a72616e6974, 0x017a726361646c6f,
   0x017a726e69746f7374, 0x017a726e6f, 0x017a726f766e61, 0x017a727963686c6974,
   0x017a727a61766f7374, 0x017a7469636861, 0x017a747261746974, 0x017a75626f76696e61,
   0x017a756272, 0x017a7665646e6f7574, 0x017a76656e6b75, 0x017a766573656c61,
   0x017a766f6e, 0x017a76726174, 0x017a76756b6f766f64, 0x017a76796b]

/-- The table `czech` (include/cardano/bip39_dictionary.hpp:4182-6230). -/
def czech : List Nat :=
  czech0 ++ (czech1 ++ (czech2 ++ (czech3 ++ (czech4 ++ (czech5 ++ (czech6 ++ (czech7 ++ (czech8 ++ (czech9 ++ (czech10 ++ (czech11 ++ (czech12 ++ (czech13 ++ (czech14 ++ (czech15 ++ (czech16 ++ (czech17 ++ (czech18 ++ (czech19 ++ (czech20 ++ (czech21 ++ (czech22 ++ (czech23 ++ (czech24 ++ (czech25 ++ (czech26 ++ (czech27 ++ (czech28 ++ (czech29 ++ (czech30 ++ (czech31)))))))))))))))))))))))))))))))

end Cardano.Bip39
