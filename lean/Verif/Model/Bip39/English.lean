/-! Generated from include/cardano/bip39_dictionary.hpp:6232-8280 (the table `english`).
Each word is written as one number: the byte 1 followed by the bytes of the word. -/

namespace Cardano.Bip39

/-- Entries 0 to 63 of `english` (include/cardano/bip39_dictionary.hpp:6232-8280): abandon … among -/
def english0 : List Nat :=
  [0x016162616e646f6e, 0x016162696c697479, 0x0161626c65, 0x0161626f7574,
   0x0161626f7665, 0x01616273656e74, 0x016162736f7262, 0x016162737472616374,
   0x01616273757264, 0x016162757365, 0x01616363657373, 0x016163636964656e74,
   0x016163636f756e74, 0x01616363757365, 0x0161636869657665, 0x0161636964,
   0x0161636f7573746963, 0x0161637175697265, 0x016163726f7373, 0x01616374,
   0x01616374696f6e, 0x016163746f72, 0x0161637472657373, 0x0161637475616c,
   0x016164617074, 0x01616464, 0x01616464696374, 0x0161646472657373,
   0x0161646a757374, 0x0161646d6974, 0x016164756c74, 0x01616476616e6365,
   0x01616476696365, 0x016165726f626963, 0x01616666616972, 0x016166666f7264,
   0x01616672616964, 0x01616761696e, 0x01616765, 0x016167656e74,
   0x016167726565, 0x016168656164, 0x0161696d, 0x01616972,
   0x01616972706f7274, 0x016169736c65, 0x01616c61726d, 0x01616c62756d,
   0x01616c636f686f6c, 0x01616c657274, 0x01616c69656e, 0x01616c6c,
   0x01616c6c6579, 0x01616c6c6f77, 0x01616c6d6f7374, 0x01616c6f6e65,
   0x01616c706861, 0x01616c7265616479, 0x01616c736f, 0x01616c746572,
   0x01616c77617973, 0x01616d6174657572, 0x01616d617a696e67, 0x01616d6f6e67]

/-- Entries 64 to 127 of `english` (include/cardano/bip39_dictionary.hpp:6232-8280): amount … avocado -/
def english1 : List Nat :=
  [0x01616d6f756e74, 0x01616d75736564, 0x01616e616c797374, 0x01616e63686f72,
   0x01616e6369656e74, 0x01616e676572, 0x01616e676c65, 0x01616e677279,
   0x01616e696d616c, 0x01616e6b6c65, 0x01616e6e6f756e6365, 0x01616e6e75616c,
   0x01616e6f74686572, 0x01616e73776572, 0x01616e74656e6e61, 0x01616e7469717565,
   0x01616e7869657479, 0x01616e79, 0x016170617274, 0x0161706f6c6f6779,
   0x01617070656172, 0x016170706c65, 0x01617070726f7665, 0x01617072696c,
   0x0161726368, 0x01617263746963, 0x0161726561, 0x016172656e61,
   0x016172677565, 0x0161726d, 0x0161726d6564, 0x0161726d6f72,
   0x0161726d79, 0x0161726f756e64, 0x01617272616e6765, 0x01617272657374,
   0x01617272697665, 0x016172726f77, 0x01617274, 0x016172746566616374,
   0x01617274697374, 0x01617274776f726b, 0x0161736b, 0x01617370656374,
   0x0161737361756c74, 0x016173736574, 0x01617373697374, 0x01617373756d65,
   0x01617374686d61, 0x016174686c657465, 0x0161746f6d, 0x0161747461636b,
   0x01617474656e64, 0x016174746974756465, 0x0161747472616374, 0x0161756374696f6e,
   0x016175646974, 0x01617567757374, 0x0161756e74, 0x01617574686f72,
   0x016175746f, 0x01617574756d6e, 0x0161766572616765, 0x0161766f6361646f]

/-- Entries 128 to 191 of `english` (include/cardano/bip39_dictionary.hpp:6232-8280): avoid … blood -/
def english2 : List Nat :=
  [0x0161766f6964, 0x016177616b65, 0x016177617265, 0x0161776179,
   0x01617765736f6d65, 0x01617766756c, 0x0161776b77617264, 0x0161786973,
   0x0162616279, 0x0162616368656c6f72, 0x016261636f6e, 0x016261646765,
   0x01626167, 0x0162616c616e6365, 0x0162616c636f6e79, 0x0162616c6c,
   0x0162616d626f6f, 0x0162616e616e61, 0x0162616e6e6572, 0x01626172,
   0x01626172656c79, 0x016261726761696e, 0x0162617272656c, 0x0162617365,
   0x016261736963, 0x016261736b6574, 0x01626174746c65, 0x016265616368,
   0x016265616e, 0x01626561757479, 0x0162656361757365, 0x016265636f6d65,
   0x0162656566, 0x016265666f7265, 0x01626567696e, 0x01626568617665,
   0x01626568696e64, 0x0162656c69657665, 0x0162656c6f77, 0x0162656c74,
   0x0162656e6368, 0x0162656e65666974, 0x0162657374, 0x01626574726179,
   0x01626574746572, 0x016265747765656e, 0x016265796f6e64, 0x0162696379636c65,
   0x01626964, 0x0162696b65, 0x0162696e64, 0x0162696f6c6f6779,
   0x0162697264, 0x016269727468, 0x01626974746572, 0x01626c61636b,
   0x01626c616465, 0x01626c616d65, 0x01626c616e6b6574, 0x01626c617374,
   0x01626c65616b, 0x01626c657373, 0x01626c696e64, 0x01626c6f6f64]

/-- Entries 192 to 255 of `english` (include/cardano/bip39_dictionary.hpp:6232-8280): blossom … cable -/
def english3 : List Nat :=
  [0x01626c6f73736f6d, 0x01626c6f757365, 0x01626c7565, 0x01626c7572,
   0x01626c757368, 0x01626f617264, 0x01626f6174, 0x01626f6479,
   0x01626f696c, 0x01626f6d62, 0x01626f6e65, 0x01626f6e7573,
   0x01626f6f6b, 0x01626f6f7374, 0x01626f72646572, 0x01626f72696e67,
   0x01626f72726f77, 0x01626f7373, 0x01626f74746f6d, 0x01626f756e6365,
   0x01626f78, 0x01626f79, 0x01627261636b6574, 0x01627261696e,
   0x016272616e64, 0x016272617373, 0x016272617665, 0x016272656164,
   0x01627265657a65, 0x01627269636b, 0x01627269646765, 0x016272696566,
   0x01627269676874, 0x016272696e67, 0x01627269736b, 0x0162726f63636f6c69,
   0x0162726f6b656e, 0x0162726f6e7a65, 0x0162726f6f6d, 0x0162726f74686572,
   0x0162726f776e, 0x016272757368, 0x01627562626c65, 0x016275646479,
   0x01627564676574, 0x0162756666616c6f, 0x016275696c64, 0x0162756c62,
   0x0162756c6b, 0x0162756c6c6574, 0x0162756e646c65, 0x0162756e6b6572,
   0x0162757264656e, 0x01627572676572, 0x016275727374, 0x01627573,
   0x01627573696e657373, 0x0162757379, 0x01627574746572, 0x016275796572,
   0x0162757a7a, 0x0163616262616765, 0x01636162696e, 0x016361626c65]

/-- Entries 256 to 319 of `english` (include/cardano/bip39_dictionary.hpp:6232-8280): cactus … child -/
def english4 : List Nat :=
  [0x01636163747573, 0x0163616765, 0x0163616b65, 0x0163616c6c,
   0x0163616c6d, 0x0163616d657261, 0x0163616d70, 0x0163616e,
   0x0163616e616c, 0x0163616e63656c, 0x0163616e6479, 0x0163616e6e6f6e,
   0x0163616e6f65, 0x0163616e766173, 0x0163616e796f6e, 0x0163617061626c65,
   0x016361706974616c, 0x016361707461696e, 0x01636172, 0x01636172626f6e,
   0x0163617264, 0x01636172676f, 0x01636172706574, 0x016361727279,
   0x0163617274, 0x0163617365, 0x0163617368, 0x01636173696e6f,
   0x01636173746c65, 0x0163617375616c, 0x01636174, 0x01636174616c6f67,
   0x016361746368, 0x0163617465676f7279, 0x01636174746c65, 0x01636175676874,
   0x016361757365, 0x0163617574696f6e, 0x0163617665, 0x016365696c696e67,
   0x0163656c657279, 0x0163656d656e74, 0x0163656e737573, 0x0163656e74757279,
   0x0163657265616c, 0x016365727461696e, 0x016368616972, 0x016368616c6b,
   0x016368616d70696f6e, 0x016368616e6765, 0x016368616f73, 0x0163686170746572,
   0x01636861726765, 0x016368617365, 0x0163686174, 0x016368656170,
   0x01636865636b, 0x01636865657365, 0x0163686566, 0x01636865727279,
   0x016368657374, 0x01636869636b656e, 0x016368696566, 0x016368696c64]

/-- Entries 320 to 383 of `english` (include/cardano/bip39_dictionary.hpp:6232-8280): chimney … copper -/
def english5 : List Nat :=
  [0x016368696d6e6579, 0x0163686f696365, 0x0163686f6f7365, 0x016368726f6e6963,
   0x01636875636b6c65, 0x016368756e6b, 0x01636875726e, 0x016369676172,
   0x0163696e6e616d6f6e, 0x01636972636c65, 0x01636974697a656e, 0x0163697479,
   0x01636976696c, 0x01636c61696d, 0x01636c6170, 0x01636c6172696679,
   0x01636c6177, 0x01636c6179, 0x01636c65616e, 0x01636c65726b,
   0x01636c65766572, 0x01636c69636b, 0x01636c69656e74, 0x01636c696666,
   0x01636c696d62, 0x01636c696e6963, 0x01636c6970, 0x01636c6f636b,
   0x01636c6f67, 0x01636c6f7365, 0x01636c6f7468, 0x01636c6f7564,
   0x01636c6f776e, 0x01636c7562, 0x01636c756d70, 0x01636c7573746572,
   0x01636c75746368, 0x01636f616368, 0x01636f617374, 0x01636f636f6e7574,
   0x01636f6465, 0x01636f66666565, 0x01636f696c, 0x01636f696e,
   0x01636f6c6c656374, 0x01636f6c6f72, 0x01636f6c756d6e, 0x01636f6d62696e65,
   0x01636f6d65, 0x01636f6d666f7274, 0x01636f6d6963, 0x01636f6d6d6f6e,
   0x01636f6d70616e79, 0x01636f6e63657274, 0x01636f6e64756374, 0x01636f6e6669726d,
   0x01636f6e6772657373, 0x01636f6e6e656374, 0x01636f6e7369646572, 0x01636f6e74726f6c,
   0x01636f6e76696e6365, 0x01636f6f6b, 0x01636f6f6c, 0x01636f70706572]

/-- Entries 384 to 447 of `english` (include/cardano/bip39_dictionary.hpp:6232-8280): copy … dawn -/
def english6 : List Nat :=
  [0x01636f7079, 0x01636f72616c, 0x01636f7265, 0x01636f726e,
   0x01636f7272656374, 0x01636f7374, 0x01636f74746f6e, 0x01636f756368,
   0x01636f756e747279, 0x01636f75706c65, 0x01636f75727365, 0x01636f7573696e,
   0x01636f766572, 0x01636f796f7465, 0x01637261636b, 0x01637261646c65,
   0x016372616674, 0x016372616d, 0x016372616e65, 0x016372617368,
   0x01637261746572, 0x01637261776c, 0x016372617a79, 0x01637265616d,
   0x01637265646974, 0x01637265656b, 0x0163726577, 0x01637269636b6574,
   0x016372696d65, 0x016372697370, 0x01637269746963, 0x0163726f70,
   0x0163726f7373, 0x0163726f756368, 0x0163726f7764, 0x016372756369616c,
   0x01637275656c, 0x01637275697365, 0x016372756d626c65, 0x016372756e6368,
   0x016372757368, 0x01637279, 0x016372797374616c, 0x0163756265,
   0x0163756c74757265, 0x01637570, 0x01637570626f617264, 0x01637572696f7573,
   0x0163757272656e74, 0x016375727461696e, 0x016375727665, 0x0163757368696f6e,
   0x01637573746f6d, 0x0163757465, 0x016379636c65, 0x01646164,
   0x0164616d616765, 0x0164616d70, 0x0164616e6365, 0x0164616e676572,
   0x01646172696e67, 0x0164617368, 0x016461756768746572, 0x016461776e]

/-- Entries 448 to 511 of `english` (include/cardano/bip39_dictionary.hpp:6232-8280): day … divide -/
def english7 : List Nat :=
  [0x01646179, 0x016465616c, 0x01646562617465, 0x01646562726973,
   0x01646563616465, 0x01646563656d626572, 0x01646563696465, 0x016465636c696e65,
   0x016465636f72617465, 0x016465637265617365, 0x0164656572, 0x01646566656e7365,
   0x01646566696e65, 0x0164656679, 0x01646567726565, 0x0164656c6179,
   0x0164656c69766572, 0x0164656d616e64, 0x0164656d697365, 0x0164656e69616c,
   0x0164656e74697374, 0x0164656e79, 0x01646570617274, 0x01646570656e64,
   0x016465706f736974, 0x016465707468, 0x01646570757479, 0x01646572697665,
   0x016465736372696265, 0x01646573657274, 0x0164657369676e, 0x016465736b,
   0x0164657370616972, 0x0164657374726f79, 0x0164657461696c, 0x01646574656374,
   0x01646576656c6f70, 0x01646576696365, 0x016465766f7465, 0x016469616772616d,
   0x016469616c, 0x016469616d6f6e64, 0x016469617279, 0x0164696365,
   0x0164696573656c, 0x0164696574, 0x01646966666572, 0x016469676974616c,
   0x016469676e697479, 0x0164696c656d6d61, 0x0164696e6e6572, 0x0164696e6f73617572,
   0x01646972656374, 0x0164697274, 0x016469736167726565, 0x01646973636f766572,
   0x0164697365617365, 0x0164697368, 0x016469736d697373, 0x016469736f72646572,
   0x01646973706c6179, 0x0164697374616e6365, 0x01646976657274, 0x01646976696465]

/-- Entries 512 to 575 of `english` (include/cardano/bip39_dictionary.hpp:6232-8280): divorce … elevator -/
def english8 : List Nat :=
  [0x016469766f726365, 0x0164697a7a79, 0x01646f63746f72, 0x01646f63756d656e74,
   0x01646f67, 0x01646f6c6c, 0x01646f6c7068696e, 0x01646f6d61696e,
   0x01646f6e617465, 0x01646f6e6b6579, 0x01646f6e6f72, 0x01646f6f72,
   0x01646f7365, 0x01646f75626c65, 0x01646f7665, 0x016472616674,
   0x01647261676f6e, 0x016472616d61, 0x0164726173746963, 0x0164726177,
   0x01647265616d, 0x016472657373, 0x016472696674, 0x016472696c6c,
   0x016472696e6b, 0x0164726970, 0x016472697665, 0x0164726f70,
   0x016472756d, 0x01647279, 0x016475636b, 0x0164756d62,
   0x0164756e65, 0x01647572696e67, 0x0164757374, 0x016475746368,
   0x0164757479, 0x016477617266, 0x0164796e616d6963, 0x016561676572,
   0x016561676c65, 0x016561726c79, 0x016561726e, 0x016561727468,
   0x01656173696c79, 0x0165617374, 0x0165617379, 0x016563686f,
   0x0165636f6c6f6779, 0x0165636f6e6f6d79, 0x0165646765, 0x0165646974,
   0x0165647563617465, 0x016566666f7274, 0x01656767, 0x016569676874,
   0x01656974686572, 0x01656c626f77, 0x01656c646572, 0x01656c656374726963,
   0x01656c6567616e74, 0x01656c656d656e74, 0x01656c657068616e74, 0x01656c657661746f72]

/-- Entries 576 to 639 of `english` (include/cardano/bip39_dictionary.hpp:6232-8280): elite … exit -/
def english9 : List Nat :=
  [0x01656c697465, 0x01656c7365, 0x01656d6261726b, 0x01656d626f6479,
   0x01656d6272616365, 0x01656d65726765, 0x01656d6f74696f6e, 0x01656d706c6f79,
   0x01656d706f776572, 0x01656d707479, 0x01656e61626c65, 0x01656e616374,
   0x01656e64, 0x01656e646c657373, 0x01656e646f727365, 0x01656e656d79,
   0x01656e65726779, 0x01656e666f726365, 0x01656e67616765, 0x01656e67696e65,
   0x01656e68616e6365, 0x01656e6a6f79, 0x01656e6c697374, 0x01656e6f756768,
   0x01656e72696368, 0x01656e726f6c6c, 0x01656e73757265, 0x01656e746572,
   0x01656e74697265, 0x01656e747279, 0x01656e76656c6f7065, 0x01657069736f6465,
   0x01657175616c, 0x016571756970, 0x01657261, 0x016572617365,
   0x0165726f6465, 0x0165726f73696f6e, 0x016572726f72, 0x016572757074,
   0x01657363617065, 0x016573736179, 0x01657373656e6365, 0x01657374617465,
   0x01657465726e616c, 0x01657468696373, 0x0165766964656e6365, 0x016576696c,
   0x0165766f6b65, 0x0165766f6c7665, 0x016578616374, 0x016578616d706c65,
   0x01657863657373, 0x0165786368616e6765, 0x01657863697465, 0x016578636c756465,
   0x01657863757365, 0x0165786563757465, 0x016578657263697365, 0x0165786861757374,
   0x0165786869626974, 0x016578696c65, 0x016578697374, 0x0165786974]

/-- Entries 640 to 703 of `english` (include/cardano/bip39_dictionary.hpp:6232-8280): exotic … fitness -/
def english10 : List Nat :=
  [0x0165786f746963, 0x01657870616e64, 0x01657870656374, 0x01657870697265,
   0x016578706c61696e, 0x016578706f7365, 0x0165787072657373, 0x01657874656e64,
   0x016578747261, 0x01657965, 0x0165796562726f77, 0x01666162726963,
   0x0166616365, 0x01666163756c7479, 0x0166616465, 0x016661696e74,
   0x016661697468, 0x0166616c6c, 0x0166616c7365, 0x0166616d65,
   0x0166616d696c79, 0x0166616d6f7573, 0x0166616e, 0x0166616e6379,
   0x0166616e74617379, 0x016661726d, 0x0166617368696f6e, 0x01666174,
   0x01666174616c, 0x01666174686572, 0x0166617469677565, 0x016661756c74,
   0x016661766f72697465, 0x0166656174757265, 0x016665627275617279, 0x016665646572616c,
   0x01666565, 0x0166656564, 0x016665656c, 0x0166656d616c65,
   0x0166656e6365, 0x01666573746976616c, 0x016665746368, 0x016665766572,
   0x01666577, 0x016669626572, 0x0166696374696f6e, 0x016669656c64,
   0x01666967757265, 0x0166696c65, 0x0166696c6d, 0x0166696c746572,
   0x0166696e616c, 0x0166696e64, 0x0166696e65, 0x0166696e676572,
   0x0166696e697368, 0x0166697265, 0x016669726d, 0x016669727374,
   0x0166697363616c, 0x0166697368, 0x01666974, 0x016669746e657373]

/-- Entries 704 to 767 of `english` (include/cardano/bip39_dictionary.hpp:6232-8280): fix … garment -/
def english11 : List Nat :=
  [0x01666978, 0x01666c6167, 0x01666c616d65, 0x01666c617368,
   0x01666c6174, 0x01666c61766f72, 0x01666c6565, 0x01666c69676874,
   0x01666c6970, 0x01666c6f6174, 0x01666c6f636b, 0x01666c6f6f72,
   0x01666c6f776572, 0x01666c756964, 0x01666c757368, 0x01666c79,
   0x01666f616d, 0x01666f637573, 0x01666f67, 0x01666f696c,
   0x01666f6c64, 0x01666f6c6c6f77, 0x01666f6f64, 0x01666f6f74,
   0x01666f726365, 0x01666f72657374, 0x01666f72676574, 0x01666f726b,
   0x01666f7274756e65, 0x01666f72756d, 0x01666f7277617264, 0x01666f7373696c,
   0x01666f73746572, 0x01666f756e64, 0x01666f78, 0x0166726167696c65,
   0x016672616d65, 0x016672657175656e74, 0x016672657368, 0x01667269656e64,
   0x016672696e6765, 0x0166726f67, 0x0166726f6e74, 0x0166726f7374,
   0x0166726f776e, 0x0166726f7a656e, 0x016672756974, 0x016675656c,
   0x0166756e, 0x0166756e6e79, 0x016675726e616365, 0x0166757279,
   0x01667574757265, 0x01676164676574, 0x016761696e, 0x0167616c617879,
   0x0167616c6c657279, 0x0167616d65, 0x01676170, 0x01676172616765,
   0x0167617262616765, 0x0167617264656e, 0x016761726c6963, 0x016761726d656e74]

/-- Entries 768 to 831 of `english` (include/cardano/bip39_dictionary.hpp:6232-8280): gas … gun -/
def english12 : List Nat :=
  [0x01676173, 0x0167617370, 0x0167617465, 0x01676174686572,
   0x016761756765, 0x0167617a65, 0x0167656e6572616c, 0x0167656e697573,
   0x0167656e7265, 0x0167656e746c65, 0x0167656e75696e65, 0x0167657374757265,
   0x0167686f7374, 0x016769616e74, 0x0167696674, 0x01676967676c65,
   0x0167696e676572, 0x0167697261666665, 0x016769726c, 0x0167697665,
   0x01676c6164, 0x01676c616e6365, 0x01676c617265, 0x01676c617373,
   0x01676c696465, 0x01676c696d707365, 0x01676c6f6265, 0x01676c6f6f6d,
   0x01676c6f7279, 0x01676c6f7665, 0x01676c6f77, 0x01676c7565,
   0x01676f6174, 0x01676f6464657373, 0x01676f6c64, 0x01676f6f64,
   0x01676f6f7365, 0x01676f72696c6c61, 0x01676f7370656c, 0x01676f73736970,
   0x01676f7665726e, 0x01676f776e, 0x0167726162, 0x016772616365,
   0x01677261696e, 0x016772616e74, 0x016772617065, 0x016772617373,
   0x0167726176697479, 0x016772656174, 0x01677265656e, 0x0167726964,
   0x016772696566, 0x0167726974, 0x0167726f63657279, 0x0167726f7570,
   0x0167726f77, 0x016772756e74, 0x016775617264, 0x016775657373,
   0x016775696465, 0x016775696c74, 0x01677569746172, 0x0167756e]

/-- Entries 832 to 895 of `english` (include/cardano/bip39_dictionary.hpp:6232-8280): gym … husband -/
def english13 : List Nat :=
  [0x0167796d, 0x016861626974, 0x0168616972, 0x0168616c66,
   0x0168616d6d6572, 0x0168616d73746572, 0x0168616e64, 0x016861707079,
   0x01686172626f72, 0x0168617264, 0x016861727368, 0x0168617276657374,
   0x01686174, 0x0168617665, 0x016861776b, 0x0168617a617264,
   0x0168656164, 0x016865616c7468, 0x016865617274, 0x016865617679,
   0x016865646765686f67, 0x01686569676874, 0x0168656c6c6f, 0x0168656c6d6574,
   0x0168656c70, 0x0168656e, 0x016865726f, 0x0168696464656e,
   0x0168696768, 0x0168696c6c, 0x0168696e74, 0x01686970,
   0x0168697265, 0x01686973746f7279, 0x01686f626279, 0x01686f636b6579,
   0x01686f6c64, 0x01686f6c65, 0x01686f6c69646179, 0x01686f6c6c6f77,
   0x01686f6d65, 0x01686f6e6579, 0x01686f6f64, 0x01686f7065,
   0x01686f726e, 0x01686f72726f72, 0x01686f727365, 0x01686f73706974616c,
   0x01686f7374, 0x01686f74656c, 0x01686f7572, 0x01686f766572,
   0x01687562, 0x0168756765, 0x0168756d616e, 0x0168756d626c65,
   0x0168756d6f72, 0x0168756e64726564, 0x0168756e677279, 0x0168756e74,
   0x01687572646c65, 0x016875727279, 0x0168757274, 0x0168757362616e64]

/-- Entries 896 to 959 of `english` (include/cardano/bip39_dictionary.hpp:6232-8280): hybrid … jewel -/
def english14 : List Nat :=
  [0x01687962726964, 0x01696365, 0x0169636f6e, 0x0169646561,
   0x016964656e74696679, 0x0169646c65, 0x0169676e6f7265, 0x01696c6c,
   0x01696c6c6567616c, 0x01696c6c6e657373, 0x01696d616765, 0x01696d6974617465,
   0x01696d6d656e7365, 0x01696d6d756e65, 0x01696d70616374, 0x01696d706f7365,
   0x01696d70726f7665, 0x01696d70756c7365, 0x01696e6368, 0x01696e636c756465,
   0x01696e636f6d65, 0x01696e637265617365, 0x01696e646578, 0x01696e646963617465,
   0x01696e646f6f72, 0x01696e647573747279, 0x01696e66616e74, 0x01696e666c696374,
   0x01696e666f726d, 0x01696e68616c65, 0x01696e6865726974, 0x01696e697469616c,
   0x01696e6a656374, 0x01696e6a757279, 0x01696e6d617465, 0x01696e6e6572,
   0x01696e6e6f63656e74, 0x01696e707574, 0x01696e7175697279, 0x01696e73616e65,
   0x01696e73656374, 0x01696e73696465, 0x01696e7370697265, 0x01696e7374616c6c,
   0x01696e74616374, 0x01696e746572657374, 0x01696e746f, 0x01696e76657374,
   0x01696e76697465, 0x01696e766f6c7665, 0x0169726f6e, 0x0169736c616e64,
   0x0169736f6c617465, 0x016973737565, 0x016974656d, 0x0169766f7279,
   0x016a61636b6574, 0x016a6167756172, 0x016a6172, 0x016a617a7a,
   0x016a65616c6f7573, 0x016a65616e73, 0x016a656c6c79, 0x016a6577656c]

/-- Entries 960 to 1023 of `english` (include/cardano/bip39_dictionary.hpp:6232-8280): job … lend -/
def english15 : List Nat :=
  [0x016a6f62, 0x016a6f696e, 0x016a6f6b65, 0x016a6f75726e6579,
   0x016a6f79, 0x016a75646765, 0x016a75696365, 0x016a756d70,
   0x016a756e676c65, 0x016a756e696f72, 0x016a756e6b, 0x016a757374,
   0x016b616e6761726f6f, 0x016b65656e, 0x016b656570, 0x016b657463687570,
   0x016b6579, 0x016b69636b, 0x016b6964, 0x016b69646e6579,
   0x016b696e64, 0x016b696e67646f6d, 0x016b697373, 0x016b6974,
   0x016b69746368656e, 0x016b697465, 0x016b697474656e, 0x016b697769,
   0x016b6e6565, 0x016b6e696665, 0x016b6e6f636b, 0x016b6e6f77,
   0x016c6162, 0x016c6162656c, 0x016c61626f72, 0x016c6164646572,
   0x016c616479, 0x016c616b65, 0x016c616d70, 0x016c616e6775616765,
   0x016c6170746f70, 0x016c61726765, 0x016c61746572, 0x016c6174696e,
   0x016c61756768, 0x016c61756e647279, 0x016c617661, 0x016c6177,
   0x016c61776e, 0x016c617773756974, 0x016c61796572, 0x016c617a79,
   0x016c6561646572, 0x016c656166, 0x016c6561726e, 0x016c65617665,
   0x016c656374757265, 0x016c656674, 0x016c6567, 0x016c6567616c,
   0x016c6567656e64, 0x016c656973757265, 0x016c656d6f6e, 0x016c656e64]

/-- Entries 1024 to 1087 of `english` (include/cardano/bip39_dictionary.hpp:6232-8280): length … margin -/
def english16 : List Nat :=
  [0x016c656e677468, 0x016c656e73, 0x016c656f70617264, 0x016c6573736f6e,
   0x016c6574746572, 0x016c6576656c, 0x016c696172, 0x016c696265727479,
   0x016c696272617279, 0x016c6963656e7365, 0x016c696665, 0x016c696674,
   0x016c69676874, 0x016c696b65, 0x016c696d62, 0x016c696d6974,
   0x016c696e6b, 0x016c696f6e, 0x016c6971756964, 0x016c697374,
   0x016c6974746c65, 0x016c697665, 0x016c697a617264, 0x016c6f6164,
   0x016c6f616e, 0x016c6f6273746572, 0x016c6f63616c, 0x016c6f636b,
   0x016c6f676963, 0x016c6f6e656c79, 0x016c6f6e67, 0x016c6f6f70,
   0x016c6f7474657279, 0x016c6f7564, 0x016c6f756e6765, 0x016c6f7665,
   0x016c6f79616c, 0x016c75636b79, 0x016c756767616765, 0x016c756d626572,
   0x016c756e6172, 0x016c756e6368, 0x016c7578757279, 0x016c7972696373,
   0x016d616368696e65, 0x016d6164, 0x016d61676963, 0x016d61676e6574,
   0x016d616964, 0x016d61696c, 0x016d61696e, 0x016d616a6f72,
   0x016d616b65, 0x016d616d6d616c, 0x016d616e, 0x016d616e616765,
   0x016d616e64617465, 0x016d616e676f, 0x016d616e73696f6e, 0x016d616e75616c,
   0x016d61706c65, 0x016d6172626c65, 0x016d61726368, 0x016d617267696e]

/-- Entries 1088 to 1151 of `english` (include/cardano/bip39_dictionary.hpp:6232-8280): marine … morning -/
def english17 : List Nat :=
  [0x016d6172696e65, 0x016d61726b6574, 0x016d61727269616765, 0x016d61736b,
   0x016d617373, 0x016d6173746572, 0x016d61746368, 0x016d6174657269616c,
   0x016d617468, 0x016d6174726978, 0x016d6174746572, 0x016d6178696d756d,
   0x016d617a65, 0x016d6561646f77, 0x016d65616e, 0x016d656173757265,
   0x016d656174, 0x016d656368616e6963, 0x016d6564616c, 0x016d65646961,
   0x016d656c6f6479, 0x016d656c74, 0x016d656d626572, 0x016d656d6f7279,
   0x016d656e74696f6e, 0x016d656e75, 0x016d65726379, 0x016d65726765,
   0x016d65726974, 0x016d65727279, 0x016d657368, 0x016d657373616765,
   0x016d6574616c, 0x016d6574686f64, 0x016d6964646c65, 0x016d69646e69676874,
   0x016d696c6b, 0x016d696c6c696f6e, 0x016d696d6963, 0x016d696e64,
   0x016d696e696d756d, 0x016d696e6f72, 0x016d696e757465, 0x016d697261636c65,
   0x016d6972726f72, 0x016d6973657279, 0x016d697373, 0x016d697374616b65,
   0x016d6978, 0x016d69786564, 0x016d697874757265, 0x016d6f62696c65,
   0x016d6f64656c, 0x016d6f64696679, 0x016d6f6d, 0x016d6f6d656e74,
   0x016d6f6e69746f72, 0x016d6f6e6b6579, 0x016d6f6e73746572, 0x016d6f6e7468,
   0x016d6f6f6e, 0x016d6f72616c, 0x016d6f7265, 0x016d6f726e696e67]

/-- Entries 1152 to 1215 of `english` (include/cardano/bip39_dictionary.hpp:6232-8280): mosquito … obey -/
def english18 : List Nat :=
  [0x016d6f73717569746f, 0x016d6f74686572, 0x016d6f74696f6e, 0x016d6f746f72,
   0x016d6f756e7461696e, 0x016d6f757365, 0x016d6f7665, 0x016d6f766965,
   0x016d756368, 0x016d756666696e, 0x016d756c65, 0x016d756c7469706c79,
   0x016d7573636c65, 0x016d757365756d, 0x016d757368726f6f6d, 0x016d75736963,
   0x016d757374, 0x016d757475616c, 0x016d7973656c66, 0x016d797374657279,
   0x016d797468, 0x016e61697665, 0x016e616d65, 0x016e61706b696e,
   0x016e6172726f77, 0x016e61737479, 0x016e6174696f6e, 0x016e6174757265,
   0x016e656172, 0x016e65636b, 0x016e656564, 0x016e65676174697665,
   0x016e65676c656374, 0x016e656974686572, 0x016e6570686577, 0x016e65727665,
   0x016e657374, 0x016e6574, 0x016e6574776f726b, 0x016e65757472616c,
   0x016e65766572, 0x016e657773, 0x016e657874, 0x016e696365,
   0x016e69676874, 0x016e6f626c65, 0x016e6f697365, 0x016e6f6d696e6565,
   0x016e6f6f646c65, 0x016e6f726d616c, 0x016e6f727468, 0x016e6f7365,
   0x016e6f7461626c65, 0x016e6f7465, 0x016e6f7468696e67, 0x016e6f74696365,
   0x016e6f76656c, 0x016e6f77, 0x016e75636c656172, 0x016e756d626572,
   0x016e75727365, 0x016e7574, 0x016f616b, 0x016f626579]

/-- Entries 1216 to 1279 of `english` (include/cardano/bip39_dictionary.hpp:6232-8280): object … paper -/
def english19 : List Nat :=
  [0x016f626a656374, 0x016f626c696765, 0x016f627363757265, 0x016f627365727665,
   0x016f627461696e, 0x016f6276696f7573, 0x016f63637572, 0x016f6365616e,
   0x016f63746f626572, 0x016f646f72, 0x016f6666, 0x016f66666572,
   0x016f6666696365, 0x016f6674656e, 0x016f696c, 0x016f6b6179,
   0x016f6c64, 0x016f6c697665, 0x016f6c796d706963, 0x016f6d6974,
   0x016f6e6365, 0x016f6e65, 0x016f6e696f6e, 0x016f6e6c696e65,
   0x016f6e6c79, 0x016f70656e, 0x016f70657261, 0x016f70696e696f6e,
   0x016f70706f7365, 0x016f7074696f6e, 0x016f72616e6765, 0x016f72626974,
   0x016f726368617264, 0x016f72646572, 0x016f7264696e617279, 0x016f7267616e,
   0x016f7269656e74, 0x016f726967696e616c, 0x016f727068616e, 0x016f737472696368,
   0x016f74686572, 0x016f7574646f6f72, 0x016f75746572, 0x016f7574707574,
   0x016f757473696465, 0x016f76616c, 0x016f76656e, 0x016f766572,
   0x016f776e, 0x016f776e6572, 0x016f787967656e, 0x016f7973746572,
   0x016f7a6f6e65, 0x0170616374, 0x01706164646c65, 0x0170616765,
   0x0170616972, 0x0170616c616365, 0x0170616c6d, 0x0170616e6461,
   0x0170616e656c, 0x0170616e6963, 0x0170616e74686572, 0x017061706572]

/-- Entries 1280 to 1343 of `english` (include/cardano/bip39_dictionary.hpp:6232-8280): parade … pony -/
def english20 : List Nat :=
  [0x01706172616465, 0x01706172656e74, 0x017061726b, 0x01706172726f74,
   0x017061727479, 0x0170617373, 0x017061746368, 0x0170617468,
   0x0170617469656e74, 0x01706174726f6c, 0x017061747465726e, 0x017061757365,
   0x0170617665, 0x017061796d656e74, 0x017065616365, 0x017065616e7574,
   0x0170656172, 0x0170656173616e74, 0x0170656c6963616e, 0x0170656e,
   0x0170656e616c7479, 0x0170656e63696c, 0x0170656f706c65, 0x01706570706572,
   0x0170657266656374, 0x017065726d6974, 0x01706572736f6e, 0x01706574,
   0x0170686f6e65, 0x0170686f746f, 0x01706872617365, 0x01706879736963616c,
   0x017069616e6f, 0x017069636e6963, 0x0170696374757265, 0x017069656365,
   0x01706967, 0x01706967656f6e, 0x0170696c6c, 0x0170696c6f74,
   0x0170696e6b, 0x0170696f6e656572, 0x0170697065, 0x01706973746f6c,
   0x017069746368, 0x0170697a7a61, 0x01706c616365, 0x01706c616e6574,
   0x01706c6173746963, 0x01706c617465, 0x01706c6179, 0x01706c65617365,
   0x01706c65646765, 0x01706c75636b, 0x01706c7567, 0x01706c756e6765,
   0x01706f656d, 0x01706f6574, 0x01706f696e74, 0x01706f6c6172,
   0x01706f6c65, 0x01706f6c696365, 0x01706f6e64, 0x01706f6e79]

/-- Entries 1344 to 1407 of `english` (include/cardano/bip39_dictionary.hpp:6232-8280): pool … quiz -/
def english21 : List Nat :=
  [0x01706f6f6c, 0x01706f70756c6172, 0x01706f7274696f6e, 0x01706f736974696f6e,
   0x01706f737369626c65, 0x01706f7374, 0x01706f7461746f, 0x01706f7474657279,
   0x01706f7665727479, 0x01706f77646572, 0x01706f776572, 0x017072616374696365,
   0x01707261697365, 0x0170726564696374, 0x01707265666572, 0x0170726570617265,
   0x0170726573656e74, 0x01707265747479, 0x0170726576656e74, 0x017072696365,
   0x017072696465, 0x017072696d617279, 0x017072696e74, 0x017072696f72697479,
   0x01707269736f6e, 0x0170726976617465, 0x017072697a65, 0x0170726f626c656d,
   0x0170726f63657373, 0x0170726f64756365, 0x0170726f666974, 0x0170726f6772616d,
   0x0170726f6a656374, 0x0170726f6d6f7465, 0x0170726f6f66, 0x0170726f7065727479,
   0x0170726f73706572, 0x0170726f74656374, 0x0170726f7564, 0x0170726f76696465,
   0x017075626c6963, 0x0170756464696e67, 0x0170756c6c, 0x0170756c70,
   0x0170756c7365, 0x0170756d706b696e, 0x0170756e6368, 0x01707570696c,
   0x017075707079, 0x017075726368617365, 0x01707572697479, 0x01707572706f7365,
   0x017075727365, 0x0170757368, 0x01707574, 0x0170757a7a6c65,
   0x01707972616d6964, 0x017175616c697479, 0x017175616e74756d, 0x0171756172746572,
   0x017175657374696f6e, 0x01717569636b, 0x0171756974, 0x017175697a]

/-- Entries 1408 to 1471 of `english` (include/cardano/bip39_dictionary.hpp:6232-8280): quote … retire -/
def english22 : List Nat :=
  [0x0171756f7465, 0x01726162626974, 0x01726163636f6f6e, 0x0172616365,
   0x017261636b, 0x017261646172, 0x01726164696f, 0x017261696c,
   0x017261696e, 0x017261697365, 0x0172616c6c79, 0x0172616d70,
   0x0172616e6368, 0x0172616e646f6d, 0x0172616e6765, 0x017261706964,
   0x0172617265, 0x0172617465, 0x01726174686572, 0x01726176656e,
   0x01726177, 0x0172617a6f72, 0x017265616479, 0x017265616c,
   0x01726561736f6e, 0x01726562656c, 0x0172656275696c64, 0x01726563616c6c,
   0x0172656365697665, 0x01726563697065, 0x017265636f7264, 0x0172656379636c65,
   0x01726564756365, 0x017265666c656374, 0x017265666f726d, 0x01726566757365,
   0x01726567696f6e, 0x01726567726574, 0x01726567756c6172, 0x0172656a656374,
   0x0172656c6178, 0x0172656c65617365, 0x0172656c696566, 0x0172656c79,
   0x0172656d61696e, 0x0172656d656d626572, 0x0172656d696e64, 0x0172656d6f7665,
   0x0172656e646572, 0x0172656e6577, 0x0172656e74, 0x0172656f70656e,
   0x01726570616972, 0x01726570656174, 0x017265706c616365, 0x017265706f7274,
   0x0172657175697265, 0x01726573637565, 0x01726573656d626c65, 0x01726573697374,
   0x017265736f75726365, 0x01726573706f6e7365, 0x01726573756c74, 0x01726574697265]

/-- Entries 1472 to 1535 of `english` (include/cardano/bip39_dictionary.hpp:6232-8280): retreat … say -/
def english23 : List Nat :=
  [0x0172657472656174, 0x0172657475726e, 0x017265756e696f6e, 0x0172657665616c,
   0x01726576696577, 0x01726577617264, 0x0172687974686d, 0x01726962,
   0x01726962626f6e, 0x0172696365, 0x0172696368, 0x0172696465,
   0x017269646765, 0x017269666c65, 0x017269676874, 0x017269676964,
   0x0172696e67, 0x0172696f74, 0x01726970706c65, 0x017269736b,
   0x0172697475616c, 0x01726976616c, 0x017269766572, 0x01726f6164,
   0x01726f617374, 0x01726f626f74, 0x01726f62757374, 0x01726f636b6574,
   0x01726f6d616e6365, 0x01726f6f66, 0x01726f6f6b6965, 0x01726f6f6d,
   0x01726f7365, 0x01726f74617465, 0x01726f756768, 0x01726f756e64,
   0x01726f757465, 0x01726f79616c, 0x01727562626572, 0x0172756465,
   0x01727567, 0x0172756c65, 0x0172756e, 0x0172756e776179,
   0x01727572616c, 0x01736164, 0x01736164646c65, 0x017361646e657373,
   0x0173616665, 0x017361696c, 0x0173616c6164, 0x0173616c6d6f6e,
   0x0173616c6f6e, 0x0173616c74, 0x0173616c757465, 0x0173616d65,
   0x0173616d706c65, 0x0173616e64, 0x0173617469736679, 0x017361746f736869,
   0x017361756365, 0x0173617573616765, 0x0173617665, 0x01736179]

/-- Entries 1536 to 1599 of `english` (include/cardano/bip39_dictionary.hpp:6232-8280): scale … side -/
def english24 : List Nat :=
  [0x017363616c65, 0x017363616e, 0x017363617265, 0x0173636174746572,
   0x017363656e65, 0x01736368656d65, 0x017363686f6f6c, 0x01736369656e6365,
   0x0173636973736f7273, 0x0173636f7270696f6e, 0x0173636f7574, 0x017363726170,
   0x0173637265656e, 0x01736372697074, 0x017363727562, 0x01736561,
   0x01736561726368, 0x01736561736f6e, 0x0173656174, 0x017365636f6e64,
   0x01736563726574, 0x0173656374696f6e, 0x017365637572697479, 0x0173656564,
   0x017365656b, 0x017365676d656e74, 0x0173656c656374, 0x0173656c6c,
   0x0173656d696e6172, 0x0173656e696f72, 0x0173656e7365, 0x0173656e74656e6365,
   0x01736572696573, 0x0173657276696365, 0x0173657373696f6e, 0x01736574746c65,
   0x017365747570, 0x01736576656e, 0x01736861646f77, 0x017368616674,
   0x017368616c6c6f77, 0x017368617265, 0x0173686564, 0x017368656c6c,
   0x0173686572696666, 0x01736869656c64, 0x017368696674, 0x017368696e65,
   0x0173686970, 0x01736869766572, 0x0173686f636b, 0x0173686f65,
   0x0173686f6f74, 0x0173686f70, 0x0173686f7274, 0x0173686f756c646572,
   0x0173686f7665, 0x01736872696d70, 0x017368727567, 0x0173687566666c65,
   0x01736879, 0x017369626c696e67, 0x017369636b, 0x0173696465]

/-- Entries 1600 to 1663 of `english` (include/cardano/bip39_dictionary.hpp:6232-8280): siege … soup -/
def english25 : List Nat :=
  [0x017369656765, 0x017369676874, 0x017369676e, 0x0173696c656e74,
   0x0173696c6b, 0x0173696c6c79, 0x0173696c766572, 0x0173696d696c6172,
   0x0173696d706c65, 0x0173696e6365, 0x0173696e67, 0x01736972656e,
   0x01736973746572, 0x0173697475617465, 0x01736978, 0x0173697a65,
   0x01736b617465, 0x01736b65746368, 0x01736b69, 0x01736b696c6c,
   0x01736b696e, 0x01736b697274, 0x01736b756c6c, 0x01736c6162,
   0x01736c616d, 0x01736c656570, 0x01736c656e646572, 0x01736c696365,
   0x01736c696465, 0x01736c69676874, 0x01736c696d, 0x01736c6f67616e,
   0x01736c6f74, 0x01736c6f77, 0x01736c757368, 0x01736d616c6c,
   0x01736d617274, 0x01736d696c65, 0x01736d6f6b65, 0x01736d6f6f7468,
   0x01736e61636b, 0x01736e616b65, 0x01736e6170, 0x01736e696666,
   0x01736e6f77, 0x01736f6170, 0x01736f63636572, 0x01736f6369616c,
   0x01736f636b, 0x01736f6461, 0x01736f6674, 0x01736f6c6172,
   0x01736f6c64696572, 0x01736f6c6964, 0x01736f6c7574696f6e, 0x01736f6c7665,
   0x01736f6d656f6e65, 0x01736f6e67, 0x01736f6f6e, 0x01736f727279,
   0x01736f7274, 0x01736f756c, 0x01736f756e64, 0x01736f7570]

/-- Entries 1664 to 1727 of `english` (include/cardano/bip39_dictionary.hpp:6232-8280): source … subject -/
def english26 : List Nat :=
  [0x01736f75726365, 0x01736f757468, 0x017370616365, 0x017370617265,
   0x017370617469616c, 0x01737061776e, 0x01737065616b, 0x017370656369616c,
   0x017370656564, 0x017370656c6c, 0x017370656e64, 0x01737068657265,
   0x017370696365, 0x01737069646572, 0x017370696b65, 0x017370696e,
   0x01737069726974, 0x0173706c6974, 0x0173706f696c, 0x0173706f6e736f72,
   0x0173706f6f6e, 0x0173706f7274, 0x0173706f74, 0x017370726179,
   0x01737072656164, 0x01737072696e67, 0x01737079, 0x01737175617265,
   0x0173717565657a65, 0x01737175697272656c, 0x01737461626c65, 0x017374616469756d,
   0x017374616666, 0x017374616765, 0x01737461697273, 0x017374616d70,
   0x017374616e64, 0x017374617274, 0x017374617465, 0x0173746179,
   0x01737465616b, 0x01737465656c, 0x017374656d, 0x0173746570,
   0x0173746572656f, 0x01737469636b, 0x017374696c6c, 0x017374696e67,
   0x0173746f636b, 0x0173746f6d616368, 0x0173746f6e65, 0x0173746f6f6c,
   0x0173746f7279, 0x0173746f7665, 0x017374726174656779, 0x01737472656574,
   0x01737472696b65, 0x017374726f6e67, 0x017374727567676c65, 0x0173747564656e74,
   0x017374756666, 0x017374756d626c65, 0x017374796c65, 0x017375626a656374]

/-- Entries 1728 to 1791 of `english` (include/cardano/bip39_dictionary.hpp:6232-8280): submit … that -/
def english27 : List Nat :=
  [0x017375626d6974, 0x01737562776179, 0x0173756363657373, 0x0173756368,
   0x0173756464656e, 0x01737566666572, 0x017375676172, 0x0173756767657374,
   0x0173756974, 0x0173756d6d6572, 0x0173756e, 0x0173756e6e79,
   0x0173756e736574, 0x017375706572, 0x01737570706c79, 0x0173757072656d65,
   0x0173757265, 0x0173757266616365, 0x017375726765, 0x017375727072697365,
   0x01737572726f756e64, 0x01737572766579, 0x0173757370656374, 0x017375737461696e,
   0x017377616c6c6f77, 0x017377616d70, 0x0173776170, 0x01737761726d,
   0x017377656172, 0x017377656574, 0x017377696674, 0x017377696d,
   0x017377696e67, 0x01737769746368, 0x0173776f7264, 0x0173796d626f6c,
   0x0173796d70746f6d, 0x017379727570, 0x0173797374656d, 0x017461626c65,
   0x017461636b6c65, 0x01746167, 0x017461696c, 0x0174616c656e74,
   0x0174616c6b, 0x0174616e6b, 0x0174617065, 0x01746172676574,
   0x017461736b, 0x017461737465, 0x01746174746f6f, 0x0174617869,
   0x017465616368, 0x017465616d, 0x0174656c6c, 0x0174656e,
   0x0174656e616e74, 0x0174656e6e6973, 0x0174656e74, 0x017465726d,
   0x0174657374, 0x0174657874, 0x017468616e6b, 0x0174686174]

/-- Entries 1792 to 1855 of `english` (include/cardano/bip39_dictionary.hpp:6232-8280): theme … tree -/
def english28 : List Nat :=
  [0x017468656d65, 0x017468656e, 0x017468656f7279, 0x017468657265,
   0x0174686579, 0x017468696e67, 0x0174686973, 0x0174686f75676874,
   0x017468726565, 0x01746872697665, 0x017468726f77, 0x017468756d62,
   0x017468756e646572, 0x017469636b6574, 0x0174696465, 0x017469676572,
   0x0174696c74, 0x0174696d626572, 0x0174696d65, 0x0174696e79,
   0x01746970, 0x017469726564, 0x01746973737565, 0x017469746c65,
   0x01746f617374, 0x01746f626163636f, 0x01746f646179, 0x01746f64646c6572,
   0x01746f65, 0x01746f676574686572, 0x01746f696c6574, 0x01746f6b656e,
   0x01746f6d61746f, 0x01746f6d6f72726f77, 0x01746f6e65, 0x01746f6e677565,
   0x01746f6e69676874, 0x01746f6f6c, 0x01746f6f7468, 0x01746f70,
   0x01746f706963, 0x01746f70706c65, 0x01746f726368, 0x01746f726e61646f,
   0x01746f72746f697365, 0x01746f7373, 0x01746f74616c, 0x01746f7572697374,
   0x01746f77617264, 0x01746f776572, 0x01746f776e, 0x01746f79,
   0x01747261636b, 0x017472616465, 0x0174726166666963, 0x01747261676963,
   0x01747261696e, 0x017472616e73666572, 0x0174726170, 0x017472617368,
   0x0174726176656c, 0x0174726179, 0x017472656174, 0x0174726565]

/-- Entries 1856 to 1919 of `english` (include/cardano/bip39_dictionary.hpp:6232-8280): trend … useful -/
def english29 : List Nat :=
  [0x017472656e64, 0x01747269616c, 0x017472696265, 0x01747269636b,
   0x0174726967676572, 0x017472696d, 0x0174726970, 0x0174726f706879,
   0x0174726f75626c65, 0x01747275636b, 0x0174727565, 0x017472756c79,
   0x017472756d706574, 0x017472757374, 0x017472757468, 0x01747279,
   0x0174756265, 0x0174756974696f6e, 0x0174756d626c65, 0x0174756e61,
   0x0174756e6e656c, 0x017475726b6579, 0x017475726e, 0x01747572746c65,
   0x017477656c7665, 0x017477656e7479, 0x017477696365, 0x017477696e,
   0x017477697374, 0x0174776f, 0x0174797065, 0x017479706963616c,
   0x0175676c79, 0x01756d6272656c6c61, 0x01756e61626c65, 0x01756e6177617265,
   0x01756e636c65, 0x01756e636f766572, 0x01756e646572, 0x01756e646f,
   0x01756e66616972, 0x01756e666f6c64, 0x01756e6861707079, 0x01756e69666f726d,
   0x01756e69717565, 0x01756e6974, 0x01756e697665727365, 0x01756e6b6e6f776e,
   0x01756e6c6f636b, 0x01756e74696c, 0x01756e757375616c, 0x01756e7665696c,
   0x01757064617465, 0x0175706772616465, 0x017570686f6c64, 0x0175706f6e,
   0x017570706572, 0x017570736574, 0x01757262616e, 0x0175726765,
   0x017573616765, 0x01757365, 0x0175736564, 0x0175736566756c]

/-- Entries 1920 to 1983 of `english` (include/cardano/bip39_dictionary.hpp:6232-8280): useless … wave -/
def english30 : List Nat :=
  [0x017573656c657373, 0x01757375616c, 0x017574696c697479, 0x01766163616e74,
   0x0176616375756d, 0x017661677565, 0x0176616c6964, 0x0176616c6c6579,
   0x0176616c7665, 0x0176616e, 0x0176616e697368, 0x017661706f72,
   0x01766172696f7573, 0x0176617374, 0x017661756c74, 0x0176656869636c65,
   0x0176656c766574, 0x0176656e646f72, 0x0176656e74757265, 0x0176656e7565,
   0x0176657262, 0x01766572696679, 0x0176657273696f6e, 0x0176657279,
   0x0176657373656c, 0x017665746572616e, 0x01766961626c65, 0x0176696272616e74,
   0x01766963696f7573, 0x01766963746f7279, 0x01766964656f, 0x0176696577,
   0x0176696c6c616765, 0x0176696e74616765, 0x0176696f6c696e, 0x017669727475616c,
   0x017669727573, 0x0176697361, 0x017669736974, 0x0176697375616c,
   0x01766974616c, 0x017669766964, 0x01766f63616c, 0x01766f696365,
   0x01766f6964, 0x01766f6c63616e6f, 0x01766f6c756d65, 0x01766f7465,
   0x01766f79616765, 0x0177616765, 0x017761676f6e, 0x0177616974,
   0x0177616c6b, 0x0177616c6c, 0x0177616c6e7574, 0x0177616e74,
   0x0177617266617265, 0x017761726d, 0x0177617272696f72, 0x0177617368,
   0x0177617370, 0x017761737465, 0x017761746572, 0x0177617665]

/-- Entries 1984 to 2047 of `english` (include/cardano/bip39_dictionary.hpp:6232-8280): way … zoo -/
def english31 : List Nat :=
  [0x01776179, 0x017765616c7468, 0x01776561706f6e, 0x0177656172,
   0x0177656173656c, 0x0177656174686572, 0x01776562, 0x0177656464696e67,
   0x017765656b656e64, 0x017765697264, 0x0177656c636f6d65, 0x0177657374,
   0x01776574, 0x017768616c65, 0x0177686174, 0x017768656174,
   0x01776865656c, 0x017768656e, 0x017768657265, 0x0177686970,
   0x0177686973706572, 0x0177696465, 0x017769647468, 0x0177696665,
   0x0177696c64, 0x0177696c6c, 0x0177696e, 0x0177696e646f77,
   0x0177696e65, 0x0177696e67, 0x0177696e6b, 0x0177696e6e6572,
   0x0177696e746572, 0x0177697265, 0x01776973646f6d, 0x0177697365,
   0x0177697368, 0x017769746e657373, 0x01776f6c66, 0x01776f6d616e,
   0x01776f6e646572, 0x01776f6f64, 0x01776f6f6c, 0x01776f7264,
   0x01776f726b, 0x01776f726c64, 0x01776f727279, 0x01776f727468,
   0x0177726170, 0x01777265636b, 0x0177726573746c65, 0x017772697374,
   0x017772697465, 0x0177726f6e67, 0x0179617264, 0x0179656172,
   0x0179656c6c6f77, 0x01796f75, 0x01796f756e67, 0x01796f757468,
   0x017a65627261, 0x017a65726f, 0x017a6f6e65, 0x017a6f6f]

/-- The table `english` (include/cardano/bip39_dictionary.hpp:6232-8280). -/
def english : List Nat :=
  english0 ++ (english1 ++ (english2 ++ (english3 ++ (english4 ++ (english5 ++ (english6 ++ (english7 ++ (english8 ++ (english9 ++ (english10 ++ (english11 ++ (english12 ++ (english13 ++ (english14 ++ (english15 ++ (english16 ++ (english17 ++ (english18 ++ (english19 ++ (english20 ++ (english21 ++ (english22 ++ (english23 ++ (english24 ++ (english25 ++ (english26 ++ (english27 ++ (english28 ++ (english29 ++ (english30 ++ (english31)))))))))))))))))))))))))))))))

end Cardano.Bip39
