/-! Generated from include/cardano/bip39_dictionary.hpp:19718-21766 (the table `spanish`).
Each word is written as one number: the byte 1 followed by the bytes of the word. -/

namespace Cardano.Bip39

/-- Entries 0 to 63 of `spanish` (include/cardano/bip39_dictionary.hpp:19718-21766): ábaco … alba -/
def spanish0 : List Nat :=
  [0x0161cc816261636f, 0x016162646f6d656e, 0x016162656a61, 0x016162696572746f,
   0x0161626f6761646f, 0x0161626f6e6f, 0x0161626f72746f, 0x01616272617a6f,
   0x016162726972, 0x01616275656c6f, 0x01616275736f, 0x01616361626172,
   0x0161636164656d6961, 0x0161636365736f, 0x01616363696fcc816e, 0x01616365697465,
   0x016163656c6761, 0x016163656e746f, 0x0161636570746172, 0x0161cc816369646f,
   0x0161636c61726172, 0x0161636e65cc81, 0x0161636f676572, 0x0161636f736f,
   0x0161637469766f, 0x016163746f, 0x0161637472697a, 0x01616374756172,
   0x01616375646972, 0x016163756572646f, 0x01616375736172, 0x0161646963746f,
   0x0161646d69746972, 0x0161646f70746172, 0x0161646f726e6f, 0x01616475616e61,
   0x016164756c746f, 0x016165cc8172656f, 0x0161666563746172, 0x0161666963696fcc816e,
   0x016166696e6172, 0x01616669726d6172, 0x0161cc8167696c, 0x01616769746172,
   0x0161676f6e69cc8161, 0x0161676f73746f, 0x0161676f746172, 0x0161677265676172,
   0x01616772696f, 0x0161677561, 0x01616775646f, 0x0161cc816775696c61,
   0x016167756a61, 0x0161686f676f, 0x0161686f72726f, 0x0161697265,
   0x016169736c6172, 0x01616a656472657a, 0x01616a656e6f, 0x01616a75737465,
   0x01616c61637261cc816e, 0x01616c616d627265, 0x01616c61726d61, 0x01616c6261]

/-- Entries 64 to 127 of `spanish` (include/cardano/bip39_dictionary.hpp:19718-21766): álbum … apoyo -/
def spanish1 : List Nat :=
  [0x0161cc816c62756d, 0x01616c63616c6465, 0x01616c646561, 0x01616c65677265,
   0x01616c656a6172, 0x01616c65727461, 0x01616c657461, 0x01616c66696c6572,
   0x01616c6761, 0x01616c676f646fcc816e, 0x01616c6961646f, 0x01616c69656e746f,
   0x01616c6976696f, 0x01616c6d61, 0x01616c6d656a61, 0x01616c6d69cc81626172,
   0x01616c746172, 0x01616c74657a61, 0x01616c7469766f, 0x01616c746f,
   0x01616c74757261, 0x01616c756d6e6f, 0x01616c7a6172, 0x01616d61626c65,
   0x01616d616e7465, 0x01616d61706f6c61, 0x01616d6172676f, 0x01616d61736172,
   0x0161cc816d626172, 0x0161cc816d6269746f, 0x01616d656e6f, 0x01616d69676f,
   0x01616d6973746164, 0x01616d6f72, 0x01616d7061726f, 0x01616d706c696f,
   0x01616e63686f, 0x01616e6369616e6f, 0x01616e636c61, 0x01616e646172,
   0x01616e6465cc816e, 0x01616e656d6961, 0x0161cc816e67756c6f, 0x01616e696c6c6f,
   0x0161cc816e696d6f, 0x01616e69cc8173, 0x01616e6f746172, 0x01616e74656e61,
   0x01616e746967756f, 0x01616e746f6a6f, 0x01616e75616c, 0x01616e756c6172,
   0x01616e756e63696f, 0x01616ecc8361646972, 0x01616ecc83656a6f, 0x01616ecc836f,
   0x01617061676172, 0x016170617261746f, 0x016170657469746f, 0x016170696f,
   0x0161706c69636172, 0x0161706f646f, 0x0161706f727465, 0x0161706f796f]

/-- Entries 128 to 191 of `spanish` (include/cardano/bip39_dictionary.hpp:19718-21766): aprender … autor -/
def spanish2 : List Nat :=
  [0x01617072656e646572, 0x016170726f626172, 0x0161707565737461, 0x01617075726f,
   0x01617261646f, 0x016172616ecc8361, 0x0161726172, 0x0161cc8172626974726f,
   0x0161cc8172626f6c, 0x016172627573746f, 0x016172636869766f, 0x016172636f,
   0x016172646572, 0x01617264696c6c61, 0x01617264756f, 0x0161cc81726561,
   0x0161cc817269646f, 0x016172696573, 0x0161726d6f6e69cc8161, 0x0161726e65cc8173,
   0x0161726f6d61, 0x0161727061, 0x016172706fcc816e, 0x0161727265676c6f,
   0x016172726f7a, 0x01617272756761, 0x0161727465, 0x0161727469737461,
   0x01617361, 0x01617361646f, 0x016173616c746f, 0x01617363656e736f,
   0x016173656775726172, 0x016173656f, 0x01617365736f72, 0x01617369656e746f,
   0x016173696c6f, 0x0161736973746972, 0x0161736e6f, 0x0161736f6d62726f,
   0x0161cc81737065726f, 0x01617374696c6c61, 0x01617374726f, 0x0161737475746f,
   0x016173756d6972, 0x016173756e746f, 0x016174616a6f, 0x01617461717565,
   0x0161746172, 0x016174656e746f, 0x016174656f, 0x0161cc817469636f,
   0x0161746c657461, 0x0161cc81746f6d6f, 0x01617472616572, 0x016174726f7a,
   0x01617475cc816e, 0x01617564617a, 0x01617564696f, 0x0161756765,
   0x0161756c61, 0x0161756d656e746f, 0x01617573656e7465, 0x016175746f72]

/-- Entries 192 to 255 of `spanish` (include/cardano/bip39_dictionary.hpp:19718-21766): aval … boina -/
def spanish3 : List Nat :=
  [0x016176616c, 0x016176616e6365, 0x01617661726f, 0x01617665,
   0x016176656c6c616e61, 0x016176656e61, 0x01617665737472757a, 0x016176696fcc816e,
   0x01617669736f, 0x0161796572, 0x016179756461, 0x016179756e6f,
   0x01617a61667261cc816e, 0x01617a6172, 0x01617a6f7465, 0x01617a75cc81636172,
   0x01617a75667265, 0x01617a756c, 0x0162616261, 0x016261626f72,
   0x016261636865, 0x0162616869cc8161, 0x016261696c65, 0x0162616a6172,
   0x0162616c616e7a61, 0x0162616c636fcc816e, 0x0162616c6465, 0x0162616d6275cc81,
   0x0162616e636f, 0x0162616e6461, 0x0162616ecc836f, 0x016261726261,
   0x01626172636f, 0x016261726e697a, 0x01626172726f, 0x016261cc817363756c61,
   0x01626173746fcc816e, 0x01626173757261, 0x01626174616c6c61, 0x01626174657269cc8161,
   0x016261746972, 0x01626174757461, 0x01626175cc816c, 0x0162617a6172,
   0x0162656265cc81, 0x01626562696461, 0x0162656c6c6f, 0x016265736172,
   0x016265736f, 0x01626573746961, 0x01626963686f, 0x016269656e,
   0x0162696e676f, 0x01626c616e636f, 0x01626c6f717565, 0x01626c757361,
   0x01626f61, 0x01626f62696e61, 0x01626f626f, 0x01626f6361,
   0x01626f63696e61, 0x01626f6461, 0x01626f64656761, 0x01626f696e61]

/-- Entries 256 to 319 of `spanish` (include/cardano/bip39_dictionary.hpp:19718-21766): bola … calma -/
def spanish4 : List Nat :=
  [0x01626f6c61, 0x01626f6c65726f, 0x01626f6c7361, 0x01626f6d6261,
   0x01626f6e646164, 0x01626f6e69746f, 0x01626f6e6f, 0x01626f6e7361cc8169,
   0x01626f726465, 0x01626f72726172, 0x01626f73717565, 0x01626f7465,
   0x01626f7469cc816e, 0x01626fcc8176656461, 0x01626f7a616c, 0x01627261766f,
   0x016272617a6f, 0x01627265636861, 0x016272657665, 0x016272696c6c6f,
   0x016272696e636f, 0x016272697361, 0x0162726f6361, 0x0162726f6d61,
   0x0162726f6e6365, 0x0162726f7465, 0x016272756a61, 0x0162727573636f,
   0x01627275746f, 0x01627563656f, 0x016275636c65, 0x016275656e6f,
   0x0162756579, 0x01627566616e6461, 0x016275666fcc816e, 0x016275cc81686f,
   0x01627569747265, 0x0162756c746f, 0x0162757262756a61, 0x016275726c61,
   0x01627572726f, 0x01627573636172, 0x01627574616361, 0x0162757a6fcc816e,
   0x01636162616c6c6f, 0x01636162657a61, 0x01636162696e61, 0x016361627261,
   0x01636163616f, 0x0163616461cc81766572, 0x01636164656e61, 0x0163616572,
   0x0163616665cc81, 0x01636169cc816461, 0x016361696d61cc816e, 0x0163616a61,
   0x0163616a6fcc816e, 0x0163616c, 0x0163616c616d6172, 0x0163616c63696f,
   0x0163616c646f, 0x0163616c69646164, 0x0163616c6c65, 0x0163616c6d61]

/-- Entries 320 to 383 of `spanish` (include/cardano/bip39_dictionary.hpp:19718-21766): calor … chancla -/
def spanish5 : List Nat :=
  [0x0163616c6f72, 0x0163616c766f, 0x0163616d61, 0x0163616d62696f,
   0x0163616d656c6c6f, 0x0163616d696e6f, 0x0163616d706f, 0x016361cc816e636572,
   0x0163616e64696c, 0x0163616e656c61, 0x0163616e6775726f, 0x0163616e696361,
   0x0163616e746f, 0x0163616ecc8361, 0x0163616ecc836fcc816e, 0x0163616f6261,
   0x0163616f73, 0x01636170617a, 0x01636170697461cc816e, 0x016361706f7465,
   0x01636170746172, 0x0163617075636861, 0x0163617261, 0x01636172626fcc816e,
   0x016361cc817263656c, 0x01636172657461, 0x016361726761, 0x01636172696ecc836f,
   0x016361726e65, 0x0163617270657461, 0x01636172726f, 0x016361727461,
   0x0163617361, 0x01636173636f, 0x0163617365726f, 0x016361737061,
   0x01636173746f72, 0x016361746f726365, 0x016361747265, 0x0163617564616c,
   0x016361757361, 0x0163617a6f, 0x016365626f6c6c61, 0x016365646572,
   0x01636564726f, 0x0163656c6461, 0x016365cc816c65627265, 0x0163656c6f736f,
   0x016365cc816c756c61, 0x0163656d656e746f, 0x0163656e697a61, 0x0163656e74726f,
   0x016365726361, 0x01636572646f, 0x01636572657a61, 0x016365726f,
   0x01636572726172, 0x0163657274657a61, 0x016365cc8173706564, 0x01636574726f,
   0x0163686163616c, 0x016368616c65636f, 0x016368616d7075cc81, 0x016368616e636c61]

/-- Entries 384 to 447 of `spanish` (include/cardano/bip39_dictionary.hpp:19718-21766): chapa … consejo -/
def spanish6 : List Nat :=
  [0x016368617061, 0x01636861726c61, 0x01636869636f, 0x01636869737465,
   0x01636869766f, 0x0163686f717565, 0x0163686f7a61, 0x016368756c657461,
   0x01636875706172, 0x016369636c6fcc816e, 0x01636965676f, 0x016369656c6f,
   0x016369656e, 0x0163696572746f, 0x016369667261, 0x016369676172726f,
   0x0163696d61, 0x0163696e636f, 0x0163696e65, 0x0163696e7461,
   0x016369707265cc8173, 0x01636972636f, 0x0163697275656c61, 0x016369736e65,
   0x0163697461, 0x01636975646164, 0x01636c616d6f72, 0x01636c616e,
   0x01636c61726f, 0x01636c617365, 0x01636c617665, 0x01636c69656e7465,
   0x01636c696d61, 0x01636c69cc816e696361, 0x01636f627265, 0x01636f6363696fcc816e,
   0x01636f6368696e6f, 0x01636f63696e61, 0x01636f636f, 0x01636fcc816469676f,
   0x01636f646f, 0x01636f667265, 0x01636f676572, 0x01636f68657465,
   0x01636f6a69cc816e, 0x01636f6a6f, 0x01636f6c61, 0x01636f6c636861,
   0x01636f6c6567696f, 0x01636f6c676172, 0x01636f6c696e61, 0x01636f6c6c6172,
   0x01636f6c6d6f, 0x01636f6c756d6e61, 0x01636f6d62617465, 0x01636f6d6572,
   0x01636f6d696461, 0x01636fcc816d6f646f, 0x01636f6d707261, 0x01636f6e6465,
   0x01636f6e656a6f, 0x01636f6e6761, 0x01636f6e6f636572, 0x01636f6e73656a6f]

/-- Entries 448 to 511 of `spanish` (include/cardano/bip39_dictionary.hpp:19718-21766): contar … dedo -/
def spanish7 : List Nat :=
  [0x01636f6e746172, 0x01636f7061, 0x01636f706961, 0x01636f72617a6fcc816e,
   0x01636f7262617461, 0x01636f7263686f, 0x01636f72646fcc816e, 0x01636f726f6e61,
   0x01636f72726572, 0x01636f736572, 0x01636f736d6f73, 0x01636f737461,
   0x01637261cc816e656f, 0x01637261cc81746572, 0x016372656172, 0x01637265636572,
   0x0163726569cc81646f, 0x016372656d61, 0x01637269cc8161, 0x016372696d656e,
   0x01637269707461, 0x01637269736973, 0x0163726f6d6f, 0x0163726fcc816e696361,
   0x0163726f7175657461, 0x01637275646f, 0x016372757a, 0x0163756164726f,
   0x0163756172746f, 0x0163756174726f, 0x016375626f, 0x01637562726972,
   0x0163756368617261, 0x016375656c6c6f, 0x016375656e746f, 0x01637565726461,
   0x01637565737461, 0x016375657661, 0x01637569646172, 0x0163756c65627261,
   0x0163756c7061, 0x0163756c746f, 0x0163756d627265, 0x0163756d706c6972,
   0x0163756e61, 0x0163756e657461, 0x0163756f7461, 0x016375706fcc816e,
   0x016375cc8170756c61, 0x016375726172, 0x01637572696f736f, 0x01637572736f,
   0x016375727661, 0x016375746973, 0x0164616d61, 0x0164616e7a61,
   0x01646172, 0x01646172646f, 0x016461cc8174696c, 0x016465626572,
   0x016465cc8162696c, 0x016465cc8163616461, 0x016465636972, 0x016465646f]

/-- Entries 512 to 575 of `spanish` (include/cardano/bip39_dictionary.hpp:19718-21766): defensa … duque -/
def spanish8 : List Nat :=
  [0x01646566656e7361, 0x01646566696e6972, 0x0164656a6172, 0x0164656c6669cc816e,
   0x0164656c6761646f, 0x0164656c69746f, 0x0164656d6f7261, 0x0164656e736f,
   0x0164656e74616c, 0x016465706f727465, 0x016465726563686f, 0x01646572726f7461,
   0x016465736179756e6f, 0x01646573656f, 0x0164657366696c65, 0x016465736e75646f,
   0x0164657374696e6f, 0x016465737669cc816f, 0x01646574616c6c65, 0x01646574656e6572,
   0x016465756461, 0x016469cc8161, 0x01646961626c6f, 0x0164696164656d61,
   0x016469616d616e7465, 0x016469616e61, 0x0164696172696f, 0x01646962756a6f,
   0x01646963746172, 0x016469656e7465, 0x016469657461, 0x016469657a,
   0x0164696669cc8163696c, 0x016469676e6f, 0x0164696c656d61, 0x0164696c756972,
   0x0164696e65726f, 0x016469726563746f, 0x0164697269676972, 0x01646973636f,
   0x01646973656ecc836f, 0x016469736672617a, 0x0164697661, 0x01646976696e6f,
   0x01646f626c65, 0x01646f6365, 0x01646f6c6f72, 0x01646f6d696e676f,
   0x01646f6e, 0x01646f6e6172, 0x01646f7261646f, 0x01646f726d6972,
   0x01646f72736f, 0x01646f73, 0x01646f736973, 0x01647261676fcc816e,
   0x0164726f6761, 0x016475636861, 0x0164756461, 0x016475656c6f,
   0x016475656ecc836f, 0x0164756c6365, 0x016475cc816f, 0x016475717565]

/-- Entries 576 to 639 of `spanish` (include/cardano/bip39_dictionary.hpp:19718-21766): durar … espada -/
def spanish9 : List Nat :=
  [0x016475726172, 0x01647572657a61, 0x016475726f, 0x0165cc8162616e6f,
   0x01656272696f, 0x016563686172, 0x0165636f, 0x0165637561646f72,
   0x0165646164, 0x0165646963696fcc816e, 0x01656469666963696f, 0x01656469746f72,
   0x01656475636172, 0x0165666563746f, 0x0165666963617a, 0x01656a65,
   0x01656a656d706c6f, 0x01656c6566616e7465, 0x01656c65676972, 0x01656c656d656e746f,
   0x01656c65766172, 0x01656c69707365, 0x0165cc816c697465, 0x01656c69786972,
   0x01656c6f67696f, 0x01656c75646972, 0x01656d6275646f, 0x01656d69746972,
   0x01656d6f63696fcc816e, 0x01656d70617465, 0x01656d70656ecc836f, 0x01656d706c656f,
   0x01656d7072657361, 0x01656e616e6f, 0x01656e636172676f, 0x01656e6368756665,
   0x01656e6369cc8161, 0x01656e656d69676f, 0x01656e65726f, 0x01656e6661646f,
   0x01656e6665726d6f, 0x01656e67616ecc836f, 0x01656e69676d61, 0x01656e6c616365,
   0x01656e6f726d65, 0x01656e7265646f, 0x01656e7361796f, 0x01656e73656ecc836172,
   0x01656e7465726f, 0x01656e74726172, 0x01656e76617365, 0x01656e7669cc816f,
   0x0165cc81706f6361, 0x0165717569706f, 0x016572697a6f, 0x01657363616c61,
   0x01657363656e61, 0x016573636f6c6172, 0x016573637269626972, 0x0165736375646f,
   0x016573656e636961, 0x01657366657261, 0x016573667565727a6f, 0x01657370616461]

/-- Entries 640 to 703 of `spanish` (include/cardano/bip39_dictionary.hpp:19718-21766): espejo … fianza -/
def spanish10 : List Nat :=
  [0x01657370656a6f, 0x0165737069cc8161, 0x016573706f7361, 0x01657370756d61,
   0x016573717569cc81, 0x016573746172, 0x0165737465, 0x01657374696c6f,
   0x01657374756661, 0x016574617061, 0x01657465726e6f, 0x0165cc8174696361,
   0x0165746e6961, 0x01657661646972, 0x016576616c756172, 0x016576656e746f,
   0x01657669746172, 0x0165786163746f, 0x016578616d656e, 0x0165786365736f,
   0x01657863757361, 0x016578656e746f, 0x01657869676972, 0x016578696c696f,
   0x0165786973746972, 0x0165cc817869746f, 0x016578706572746f, 0x016578706c69636172,
   0x016578706f6e6572, 0x0165787472656d6f, 0x016661cc816272696361, 0x016661cc8162756c61,
   0x0166616368616461, 0x016661cc8163696c, 0x01666163746f72, 0x016661656e61,
   0x0166616a61, 0x0166616c6461, 0x0166616c6c6f, 0x0166616c736f,
   0x0166616c746172, 0x0166616d61, 0x0166616d696c6961, 0x0166616d6f736f,
   0x01666172616fcc816e, 0x016661726d61636961, 0x016661726f6c, 0x016661727361,
   0x0166617365, 0x01666174696761, 0x016661756e61, 0x016661766f72,
   0x01666178, 0x016665627265726f, 0x016665636861, 0x0166656c697a,
   0x0166656f, 0x016665726961, 0x016665726f7a, 0x016665cc817274696c,
   0x01666572766f72, 0x016665737469cc816e, 0x01666961626c65, 0x016669616e7a61]

/-- Entries 704 to 767 of `spanish` (include/cardano/bip39_dictionary.hpp:19718-21766): fiar … fútbol -/
def spanish11 : List Nat :=
  [0x0166696172, 0x016669627261, 0x0166696363696fcc816e, 0x016669636861,
   0x01666964656f, 0x01666965627265, 0x016669656c, 0x016669657261,
   0x01666965737461, 0x01666967757261, 0x0166696a6172, 0x0166696a6f,
   0x0166696c61, 0x0166696c657465, 0x0166696c69616c, 0x0166696c74726f,
   0x0166696e, 0x0166696e6361, 0x0166696e676972, 0x0166696e69746f,
   0x016669726d61, 0x01666c61636f, 0x01666c61757461, 0x01666c65636861,
   0x01666c6f72, 0x01666c6f7461, 0x01666c756972, 0x01666c756a6f,
   0x01666c75cc816f72, 0x01666f626961, 0x01666f6361, 0x01666f67617461,
   0x01666f676fcc816e, 0x01666f6c696f, 0x01666f6c6c65746f, 0x01666f6e646f,
   0x01666f726d61, 0x01666f72726f, 0x01666f7274756e61, 0x01666f727a6172,
   0x01666f7361, 0x01666f746f, 0x016672616361736f, 0x01667261cc8167696c,
   0x016672616e6a61, 0x016672617365, 0x01667261756465, 0x0166726569cc8172,
   0x016672656e6f, 0x016672657361, 0x01667269cc816f, 0x01667269746f,
   0x016672757461, 0x01667565676f, 0x016675656e7465, 0x01667565727a61,
   0x0166756761, 0x0166756d6172, 0x0166756e63696fcc816e, 0x0166756e6461,
   0x01667572676fcc816e, 0x016675726961, 0x01667573696c, 0x016675cc8174626f6c]

/-- Entries 768 to 831 of `spanish` (include/cardano/bip39_dictionary.hpp:19718-21766): futuro … guante -/
def spanish12 : List Nat :=
  [0x0166757475726f, 0x01676163656c61, 0x016761666173, 0x016761697461,
   0x0167616a6f, 0x0167616c61, 0x0167616c657269cc8161, 0x0167616c6c6f,
   0x0167616d6261, 0x0167616e6172, 0x0167616e63686f, 0x0167616e6761,
   0x0167616e736f, 0x01676172616a65, 0x016761727a61, 0x016761736f6c696e61,
   0x01676173746172, 0x016761746f, 0x01676176696c61cc816e, 0x0167656d656c6f,
   0x0167656d6972, 0x0167656e, 0x016765cc816e65726f, 0x0167656e696f,
   0x0167656e7465, 0x01676572616e696f, 0x01676572656e7465, 0x016765726d656e,
   0x01676573746f, 0x01676967616e7465, 0x0167696d6e6173696f, 0x016769726172,
   0x016769726f, 0x01676c6163696172, 0x01676c6f626f, 0x01676c6f726961,
   0x01676f6c, 0x01676f6c666f, 0x01676f6c6f736f, 0x01676f6c7065,
   0x01676f6d61, 0x01676f72646f, 0x01676f72696c61, 0x01676f727261,
   0x01676f7461, 0x01676f74656f, 0x01676f7a6172, 0x016772616461,
   0x01677261cc816669636f, 0x016772616e6f, 0x016772617361, 0x01677261746973,
   0x016772617665, 0x01677269657461, 0x016772696c6c6f, 0x016772697065,
   0x0167726973, 0x01677269746f, 0x0167726f736f72, 0x01677275cc8161,
   0x0167727565736f, 0x016772756d6f, 0x01677275706f, 0x016775616e7465]

/-- Entries 832 to 895 of `spanish` (include/cardano/bip39_dictionary.hpp:19718-21766): guapo … huracán -/
def spanish13 : List Nat :=
  [0x01677561706f, 0x0167756172646961, 0x01677565727261, 0x01677569cc8161,
   0x016775696ecc836f, 0x016775696f6e, 0x01677569736f, 0x016775697461727261,
   0x01677573616e6f, 0x01677573746172, 0x016861626572, 0x016861cc8162696c,
   0x016861626c6172, 0x016861636572, 0x016861636861, 0x0168616461,
   0x0168616c6c6172, 0x0168616d616361, 0x01686172696e61, 0x0168617a,
   0x0168617a616ecc8361, 0x01686562696c6c61, 0x016865627261, 0x01686563686f,
   0x0168656c61646f, 0x0168656c696f, 0x0168656d627261, 0x016865726972,
   0x016865726d616e6f, 0x016865cc81726f65, 0x01686572766972, 0x016869656c6f,
   0x0168696572726f, 0x016869cc816761646f, 0x0168696769656e65, 0x0168696a6f,
   0x0168696d6e6f, 0x01686973746f726961, 0x01686f6369636f, 0x01686f676172,
   0x01686f6775657261, 0x01686f6a61, 0x01686f6d627265, 0x01686f6e676f,
   0x01686f6e6f72, 0x01686f6e7261, 0x01686f7261, 0x01686f726d696761,
   0x01686f726e6f, 0x01686f7374696c, 0x01686f796f, 0x01687565636f,
   0x016875656c6761, 0x01687565727461, 0x01687565736f, 0x01687565766f,
   0x016875696461, 0x0168756972, 0x0168756d616e6f, 0x016875cc816d65646f,
   0x0168756d696c6465, 0x0168756d6f, 0x0168756e646972, 0x01687572616361cc816e]

/-- Entries 896 to 959 of `spanish` (include/cardano/bip39_dictionary.hpp:19718-21766): hurto … junio -/
def spanish14 : List Nat :=
  [0x01687572746f, 0x0169636f6e6f, 0x01696465616c, 0x016964696f6d61,
   0x0169cc81646f6c6f, 0x0169676c65736961, 0x0169676c75cc81, 0x01696775616c,
   0x01696c6567616c, 0x01696c7573696fcc816e, 0x01696d6167656e, 0x01696d61cc816e,
   0x01696d69746172, 0x01696d706172, 0x01696d706572696f, 0x01696d706f6e6572,
   0x01696d70756c736f, 0x01696e636170617a, 0x0169cc816e64696365, 0x01696e65727465,
   0x01696e6669656c, 0x01696e666f726d65, 0x01696e67656e696f, 0x01696e6963696f,
   0x01696e6d656e736f, 0x01696e6d756e65, 0x01696e6e61746f, 0x01696e736563746f,
   0x01696e7374616e7465, 0x01696e74657265cc8173, 0x0169cc816e74696d6f, 0x01696e74756972,
   0x01696e75cc8174696c, 0x01696e766965726e6f, 0x01697261, 0x0169726973,
   0x0169726f6e69cc8161, 0x0169736c61, 0x0169736c6f7465, 0x016a6162616c69cc81,
   0x016a61626fcc816e, 0x016a616d6fcc816e, 0x016a6172616265, 0x016a61726469cc816e,
   0x016a61727261, 0x016a61756c61, 0x016a617a6d69cc816e, 0x016a656665,
   0x016a6572696e6761, 0x016a696e657465, 0x016a6f726e616461, 0x016a6f726f6261,
   0x016a6f76656e, 0x016a6f7961, 0x016a7565726761, 0x016a7565766573,
   0x016a75657a, 0x016a756761646f72, 0x016a75676f, 0x016a756775657465,
   0x016a756963696f, 0x016a756e636f, 0x016a756e676c61, 0x016a756e696f]

/-- Entries 960 to 1023 of `spanish` (include/cardano/bip39_dictionary.hpp:19718-21766): juntar … limpio -/
def spanish15 : List Nat :=
  [0x016a756e746172, 0x016a75cc817069746572, 0x016a75726172, 0x016a7573746f,
   0x016a7576656e696c, 0x016a757a676172, 0x016b696c6f, 0x016b6f616c61,
   0x016c6162696f, 0x016c6163696f, 0x016c61637261, 0x016c61646f,
   0x016c6164726fcc816e, 0x016c61676172746f, 0x016c61cc816772696d61, 0x016c6167756e61,
   0x016c6169636f, 0x016c616d6572, 0x016c61cc816d696e61, 0x016c61cc816d70617261,
   0x016c616e61, 0x016c616e636861, 0x016c616e676f737461, 0x016c616e7a61,
   0x016c61cc8170697a, 0x016c6172676f, 0x016c61727661, 0x016c61cc817374696d61,
   0x016c617461, 0x016c61cc81746578, 0x016c61746972, 0x016c617572656c,
   0x016c61766172, 0x016c617a6f, 0x016c65616c, 0x016c656363696fcc816e,
   0x016c65636865, 0x016c6563746f72, 0x016c656572, 0x016c6567696fcc816e,
   0x016c6567756d627265, 0x016c656a616e6f, 0x016c656e677561, 0x016c656e746f,
   0x016c656ecc8361, 0x016c656fcc816e, 0x016c656f706172646f, 0x016c6573696fcc816e,
   0x016c6574616c, 0x016c65747261, 0x016c657665, 0x016c6579656e6461,
   0x016c69626572746164, 0x016c6962726f, 0x016c69636f72, 0x016c69cc81646572,
   0x016c6964696172, 0x016c69656e7a6f, 0x016c696761, 0x016c696765726f,
   0x016c696d61, 0x016c69cc816d697465, 0x016c696d6fcc816e, 0x016c696d70696f]

/-- Entries 1024 to 1087 of `spanish` (include/cardano/bip39_dictionary.hpp:19718-21766): lince … maniquí -/
def spanish16 : List Nat :=
  [0x016c696e6365, 0x016c696e646f, 0x016c69cc816e6561, 0x016c696e676f7465,
   0x016c696e6f, 0x016c696e7465726e61, 0x016c69cc81717569646f, 0x016c69736f,
   0x016c69737461, 0x016c6974657261, 0x016c6974696f, 0x016c6974726f,
   0x016c6c616761, 0x016c6c616d61, 0x016c6c616e746f, 0x016c6c617665,
   0x016c6c65676172, 0x016c6c656e6172, 0x016c6c65766172, 0x016c6c6f726172,
   0x016c6c6f766572, 0x016c6c75766961, 0x016c6f626f, 0x016c6f63696fcc816e,
   0x016c6f636f, 0x016c6f63757261, 0x016c6fcc8167696361, 0x016c6f67726f,
   0x016c6f6d6272697a, 0x016c6f6d6f, 0x016c6f6e6a61, 0x016c6f7465,
   0x016c75636861, 0x016c75636972, 0x016c75676172, 0x016c756a6f,
   0x016c756e61, 0x016c756e6573, 0x016c757061, 0x016c757374726f,
   0x016c75746f, 0x016c757a, 0x016d6163657461, 0x016d6163686f,
   0x016d6164657261, 0x016d61647265, 0x016d616475726f, 0x016d61657374726f,
   0x016d61666961, 0x016d61676961, 0x016d61676f, 0x016d6169cc817a,
   0x016d616c646164, 0x016d616c657461, 0x016d616c6c61, 0x016d616c6f,
   0x016d616d61cc81, 0x016d616d626f, 0x016d616d7574, 0x016d616e636f,
   0x016d616e646f, 0x016d616e656a6172, 0x016d616e6761, 0x016d616e69717569cc81]

/-- Entries 1088 to 1151 of `spanish` (include/cardano/bip39_dictionary.hpp:19718-21766): manjar … miope -/
def spanish17 : List Nat :=
  [0x016d616e6a6172, 0x016d616e6f, 0x016d616e736f, 0x016d616e7461,
   0x016d616ecc83616e61, 0x016d617061, 0x016d61cc817175696e61, 0x016d6172,
   0x016d6172636f, 0x016d61726561, 0x016d617266696c, 0x016d617267656e,
   0x016d617269646f, 0x016d61cc81726d6f6c, 0x016d6172726fcc816e, 0x016d6172746573,
   0x016d61727a6f, 0x016d617361, 0x016d61cc817363617261, 0x016d617369766f,
   0x016d61746172, 0x016d617465726961, 0x016d6174697a, 0x016d617472697a,
   0x016d61cc8178696d6f, 0x016d61796f72, 0x016d617a6f726361, 0x016d65636861,
   0x016d6564616c6c61, 0x016d6564696f, 0x016d65cc8164756c61, 0x016d656a696c6c61,
   0x016d656a6f72, 0x016d656c656e61, 0x016d656c6fcc816e, 0x016d656d6f726961,
   0x016d656e6f72, 0x016d656e73616a65, 0x016d656e7465, 0x016d656e75cc81,
   0x016d65726361646f, 0x016d6572656e677565, 0x016d65cc817269746f, 0x016d6573,
   0x016d65736fcc816e, 0x016d657461, 0x016d65746572, 0x016d65cc81746f646f,
   0x016d6574726f, 0x016d657a636c61, 0x016d6965646f, 0x016d69656c,
   0x016d69656d62726f, 0x016d696761, 0x016d696c, 0x016d696c6167726f,
   0x016d696c69746172, 0x016d696c6c6fcc816e, 0x016d696d6f, 0x016d696e61,
   0x016d696e65726f, 0x016d69cc816e696d6f, 0x016d696e75746f, 0x016d696f7065]

/-- Entries 1152 to 1215 of `spanish` (include/cardano/bip39_dictionary.hpp:19718-21766): mirar … nasal -/
def spanish18 : List Nat :=
  [0x016d69726172, 0x016d697361, 0x016d697365726961, 0x016d6973696c,
   0x016d69736d6f, 0x016d69746164, 0x016d69746f, 0x016d6f6368696c61,
   0x016d6f63696fcc816e, 0x016d6f6461, 0x016d6f64656c6f, 0x016d6f686f,
   0x016d6f6a6172, 0x016d6f6c6465, 0x016d6f6c6572, 0x016d6f6c696e6f,
   0x016d6f6d656e746f, 0x016d6f6d6961, 0x016d6f6e61726361, 0x016d6f6e656461,
   0x016d6f6e6a61, 0x016d6f6e746f, 0x016d6f6ecc836f, 0x016d6f72616461,
   0x016d6f72646572, 0x016d6f72656e6f, 0x016d6f726972, 0x016d6f72726f,
   0x016d6f727361, 0x016d6f7274616c, 0x016d6f736361, 0x016d6f7374726172,
   0x016d6f7469766f, 0x016d6f766572, 0x016d6fcc8176696c, 0x016d6f7a6f,
   0x016d7563686f, 0x016d75646172, 0x016d7565626c65, 0x016d75656c61,
   0x016d7565727465, 0x016d756573747261, 0x016d75677265, 0x016d756a6572,
   0x016d756c61, 0x016d756c657461, 0x016d756c7461, 0x016d756e646f,
   0x016d756ecc83656361, 0x016d7572616c, 0x016d75726f, 0x016d75cc817363756c6f,
   0x016d7573656f, 0x016d7573676f, 0x016d75cc8173696361, 0x016d75736c6f,
   0x016e61cc81636172, 0x016e6163696fcc816e, 0x016e61646172, 0x016e61697065,
   0x016e6172616e6a61, 0x016e6172697a, 0x016e6172726172, 0x016e6173616c]

/-- Entries 1216 to 1279 of `spanish` (include/cardano/bip39_dictionary.hpp:19718-21766): natal … ocre -/
def spanish19 : List Nat :=
  [0x016e6174616c, 0x016e617469766f, 0x016e61747572616c, 0x016e61cc8175736561,
   0x016e6176616c, 0x016e617665, 0x016e617669646164, 0x016e6563696f,
   0x016e65cc8163746172, 0x016e65676172, 0x016e65676f63696f, 0x016e6567726f,
   0x016e656fcc816e, 0x016e657276696f, 0x016e65746f, 0x016e657574726f,
   0x016e65766172, 0x016e6576657261, 0x016e6963686f, 0x016e69646f,
   0x016e6965626c61, 0x016e6965746f, 0x016e696ecc83657a, 0x016e696ecc836f,
   0x016e69cc817469646f, 0x016e6976656c, 0x016e6f626c657a61, 0x016e6f636865,
   0x016e6fcc816d696e61, 0x016e6f726961, 0x016e6f726d61, 0x016e6f727465,
   0x016e6f7461, 0x016e6f7469636961, 0x016e6f7661746f, 0x016e6f76656c61,
   0x016e6f76696f, 0x016e756265, 0x016e756361, 0x016e75cc81636c656f,
   0x016e7564696c6c6f, 0x016e75646f, 0x016e75657261, 0x016e75657665,
   0x016e75657a, 0x016e756c6f, 0x016e75cc816d65726f, 0x016e7574726961,
   0x016f61736973, 0x016f6265736f, 0x016f626973706f, 0x016f626a65746f,
   0x016f627261, 0x016f627265726f, 0x016f62736572766172, 0x016f6274656e6572,
   0x016f6276696f, 0x016f6361, 0x016f6361736f, 0x016f6365cc81616e6f,
   0x016f6368656e7461, 0x016f63686f, 0x016f63696f, 0x016f637265]

/-- Entries 1280 to 1343 of `spanish` (include/cardano/bip39_dictionary.hpp:19718-21766): octavo … oyente -/
def spanish20 : List Nat :=
  [0x016f637461766f, 0x016f637475627265, 0x016f63756c746f, 0x016f6375706172,
   0x016f637572726972, 0x016f64696172, 0x016f64696f, 0x016f6469736561,
   0x016f65737465, 0x016f66656e7361, 0x016f6665727461, 0x016f666963696f,
   0x016f667265636572, 0x016f67726f, 0x016f69cc81646f, 0x016f69cc8172,
   0x016f6a6f, 0x016f6c61, 0x016f6c65616461, 0x016f6c6661746f,
   0x016f6c69766f, 0x016f6c6c61, 0x016f6c6d6f, 0x016f6c6f72,
   0x016f6c7669646f, 0x016f6d626c69676f, 0x016f6e6461, 0x016f6e7a61,
   0x016f7061636f, 0x016f7063696fcc816e, 0x016fcc8170657261, 0x016f70696e6172,
   0x016f706f6e6572, 0x016f70746172, 0x016fcc817074696361, 0x016f70756573746f,
   0x016f726163696fcc816e, 0x016f7261646f72, 0x016f72616c, 0x016fcc817262697461,
   0x016f726361, 0x016f7264656e, 0x016f72656a61, 0x016fcc817267616e6f,
   0x016f726769cc8161, 0x016f7267756c6c6f, 0x016f7269656e7465, 0x016f726967656e,
   0x016f72696c6c61, 0x016f726f, 0x016f72717565737461, 0x016f72756761,
   0x016f73616469cc8161, 0x016f736375726f, 0x016f73657a6e6f, 0x016f736f,
   0x016f73747261, 0x016f746f6ecc836f, 0x016f74726f, 0x016f76656a61,
   0x016fcc8176756c6f, 0x016fcc817869646f, 0x016f7869cc8167656e6f, 0x016f79656e7465]

/-- Entries 1344 to 1407 of `spanish` (include/cardano/bip39_dictionary.hpp:19718-21766): ozono … peón -/
def spanish21 : List Nat :=
  [0x016f7a6f6e6f, 0x01706163746f, 0x017061647265, 0x017061656c6c61,
   0x017061cc8167696e61, 0x017061676f, 0x01706169cc8173, 0x017061cc816a61726f,
   0x0170616c61627261, 0x0170616c636f, 0x0170616c657461, 0x017061cc816c69646f,
   0x0170616c6d61, 0x0170616c6f6d61, 0x0170616c706172, 0x0170616e,
   0x0170616e616c, 0x017061cc816e69636f, 0x0170616e74657261, 0x0170616ecc8375656c6f,
   0x0170617061cc81, 0x01706170656c, 0x01706170696c6c61, 0x0170617175657465,
   0x017061726172, 0x0170617263656c61, 0x017061726564, 0x017061726972,
   0x017061726f, 0x017061cc81727061646f, 0x01706172717565, 0x017061cc81727261666f,
   0x017061727465, 0x017061736172, 0x01706173656f, 0x01706173696fcc816e,
   0x017061736f, 0x017061737461, 0x0170617461, 0x01706174696f,
   0x01706174726961, 0x017061757361, 0x017061757461, 0x017061766f,
   0x0170617961736f, 0x01706561746fcc816e, 0x0170656361646f, 0x01706563657261,
   0x01706563686f, 0x01706564616c, 0x017065646972, 0x017065676172,
   0x017065696e65, 0x0170656c6172, 0x0170656c64616ecc836f, 0x0170656c6561,
   0x0170656c6967726f, 0x0170656c6c656a6f, 0x0170656c6f, 0x0170656c756361,
   0x0170656e61, 0x0170656e736172, 0x0170656ecc836fcc816e, 0x0170656fcc816e]

/-- Entries 1408 to 1471 of `spanish` (include/cardano/bip39_dictionary.hpp:19718-21766): peor … pollo -/
def spanish22 : List Nat :=
  [0x0170656f72, 0x01706570696e6f, 0x0170657175656ecc836f, 0x0170657261,
   0x01706572636861, 0x01706572646572, 0x01706572657a61, 0x0170657266696c,
   0x0170657269636f, 0x017065726c61, 0x017065726d69736f, 0x01706572726f,
   0x01706572736f6e61, 0x0170657361, 0x017065736361, 0x017065cc8173696d6f,
   0x0170657374616ecc8361, 0x017065cc8174616c6f, 0x01706574726fcc816c656f, 0x0170657a,
   0x0170657a756ecc8361, 0x017069636172, 0x01706963686fcc816e, 0x01706965,
   0x01706965647261, 0x01706965726e61, 0x017069657a61, 0x0170696a616d61,
   0x0170696c6172, 0x0170696c6f746f, 0x0170696d69656e7461, 0x0170696e6f,
   0x0170696e746f72, 0x0170696e7a61, 0x0170696ecc8361, 0x0170696f6a6f,
   0x0170697061, 0x01706972617461, 0x017069736172, 0x0170697363696e61,
   0x017069736f, 0x017069737461, 0x017069746fcc816e, 0x0170697a6361,
   0x01706c616361, 0x01706c616e, 0x01706c617461, 0x01706c617961,
   0x01706c617a61, 0x01706c6569746f, 0x01706c656e6f, 0x01706c6f6d6f,
   0x01706c756d61, 0x01706c7572616c, 0x01706f627265, 0x01706f636f,
   0x01706f646572, 0x01706f64696f, 0x01706f656d61, 0x01706f657369cc8161,
   0x01706f657461, 0x01706f6c656e, 0x01706f6c696369cc8161, 0x01706f6c6c6f]

/-- Entries 1472 to 1535 of `spanish` (include/cardano/bip39_dictionary.hpp:19718-21766): polvo … química -/
def spanish23 : List Nat :=
  [0x01706f6c766f, 0x01706f6d616461, 0x01706f6d656c6f, 0x01706f6d6f,
   0x01706f6d7061, 0x01706f6e6572, 0x01706f7263696fcc816e, 0x01706f7274616c,
   0x01706f73616461, 0x01706f73656572, 0x01706f7369626c65, 0x01706f737465,
   0x01706f74656e636961, 0x01706f74726f, 0x01706f7a6f, 0x01707261646f,
   0x01707265636f7a, 0x0170726567756e7461, 0x017072656d696f, 0x017072656e7361,
   0x01707265736f, 0x0170726576696f, 0x017072696d6f, 0x01707269cc816e63697065,
   0x0170726973696fcc816e, 0x01707269766172, 0x0170726f61, 0x0170726f626172,
   0x0170726f6365736f, 0x0170726f647563746f, 0x0170726f657a61, 0x0170726f6665736f72,
   0x0170726f6772616d61, 0x0170726f6c65, 0x0170726f6d657361, 0x0170726f6e746f,
   0x0170726f70696f, 0x0170726fcc8178696d6f, 0x01707275656261, 0x017075cc81626c69636f,
   0x017075636865726f, 0x017075646f72, 0x01707565626c6f, 0x01707565727461,
   0x0170756573746f, 0x0170756c6761, 0x0170756c6972, 0x0170756c6d6fcc816e,
   0x0170756c706f, 0x0170756c736f, 0x0170756d61, 0x0170756e746f,
   0x0170756ecc83616c, 0x0170756ecc836f, 0x0170757061, 0x01707570696c61,
   0x0170757265cc81, 0x01717565646172, 0x017175656a61, 0x017175656d6172,
   0x01717565726572, 0x01717565736f, 0x0171756965746f, 0x01717569cc816d696361]

/-- Entries 1536 to 1599 of `spanish` (include/cardano/bip39_dictionary.hpp:19718-21766): quince … rescate -/
def spanish24 : List Nat :=
  [0x017175696e6365, 0x01717569746172, 0x017261cc8162616e6f, 0x017261626961,
   0x017261626f, 0x01726163696fcc816e, 0x017261646963616c, 0x01726169cc817a,
   0x0172616d61, 0x0172616d7061, 0x0172616e63686f, 0x0172616e676f,
   0x01726170617a, 0x017261cc817069646f, 0x01726170746f, 0x01726173676f,
   0x017261737061, 0x017261746f, 0x017261796f, 0x0172617a61,
   0x0172617a6fcc816e, 0x017265616363696fcc816e, 0x017265616c69646164, 0x01726562616ecc836f,
   0x017265626f7465, 0x01726563616572, 0x01726563657461, 0x0172656368617a6f,
   0x017265636f676572, 0x0172656372656f, 0x01726563746f, 0x017265637572736f,
   0x01726564, 0x017265646f6e646f, 0x0172656475636972, 0x017265666c656a6f,
   0x017265666f726d61, 0x017265667261cc816e, 0x017265667567696f, 0x01726567616c6f,
   0x017265676972, 0x017265676c61, 0x017265677265736f, 0x0172656865cc816e,
   0x017265696e6f, 0x01726569cc8172, 0x0172656a61, 0x0172656c61746f,
   0x0172656c65766f, 0x0172656c69657665, 0x0172656c6c656e6f, 0x0172656c6f6a,
   0x0172656d6172, 0x0172656d6564696f, 0x0172656d6f, 0x0172656e636f72,
   0x0172656e646972, 0x0172656e7461, 0x017265706172746f, 0x0172657065746972,
   0x017265706f736f, 0x0172657074696c, 0x01726573, 0x0172657363617465]

/-- Entries 1600 to 1663 of `spanish` (include/cardano/bip39_dictionary.hpp:19718-21766): resina … sabio -/
def spanish25 : List Nat :=
  [0x01726573696e61, 0x017265737065746f, 0x01726573746f, 0x01726573756d656e,
   0x0172657469726f, 0x017265746f726e6f, 0x017265747261746f, 0x017265756e6972,
   0x0172657665cc8173, 0x0172657669737461, 0x01726579, 0x0172657a6172,
   0x017269636f, 0x01726965676f, 0x017269656e6461, 0x0172696573676f,
   0x0172696661, 0x017269cc816769646f, 0x017269676f72, 0x0172696e636fcc816e,
   0x0172696ecc836fcc816e, 0x017269cc816f, 0x0172697175657a61, 0x0172697361,
   0x017269746d6f, 0x017269746f, 0x0172697a6f, 0x01726f626c65,
   0x01726f6365, 0x01726f63696172, 0x01726f646172, 0x01726f64656f,
   0x01726f64696c6c61, 0x01726f6572, 0x01726f6a697a6f, 0x01726f6a6f,
   0x01726f6d65726f, 0x01726f6d706572, 0x01726f6e, 0x01726f6e636f,
   0x01726f6e6461, 0x01726f7061, 0x01726f7065726f, 0x01726f7361,
   0x01726f736361, 0x01726f7374726f, 0x01726f746172, 0x0172756269cc81,
   0x017275626f72, 0x017275646f, 0x017275656461, 0x017275676972,
   0x01727569646f, 0x017275696e61, 0x0172756c657461, 0x0172756c6f,
   0x0172756d626f, 0x0172756d6f72, 0x0172757074757261, 0x0172757461,
   0x01727574696e61, 0x017361cc816261646f, 0x017361626572, 0x01736162696f]

/-- Entries 1664 to 1727 of `spanish` (include/cardano/bip39_dictionary.hpp:19718-21766): sable … signo -/
def spanish26 : List Nat :=
  [0x017361626c65, 0x017361636172, 0x01736167617a, 0x017361677261646f,
   0x0173616c61, 0x0173616c646f, 0x0173616c65726f, 0x0173616c6972,
   0x0173616c6d6fcc816e, 0x0173616c6fcc816e, 0x0173616c7361, 0x0173616c746f,
   0x0173616c7564, 0x0173616c766172, 0x0173616d6261, 0x0173616e63696fcc816e,
   0x0173616e6469cc8161, 0x0173616e656172, 0x0173616e677265, 0x0173616e69646164,
   0x0173616e6f, 0x0173616e746f, 0x017361706f, 0x017361717565,
   0x0173617264696e61, 0x017361727465cc816e, 0x01736173747265, 0x0173617461cc816e,
   0x017361756e61, 0x017361786f666fcc816e, 0x0173656363696fcc816e, 0x017365636f,
   0x017365637265746f, 0x017365637461, 0x01736564, 0x01736567756972,
   0x0173656973, 0x0173656c6c6f, 0x0173656c7661, 0x0173656d616e61,
   0x0173656d696c6c61, 0x0173656e6461, 0x0173656e736f72, 0x0173656ecc83616c,
   0x0173656ecc836f72, 0x0173657061726172, 0x017365706961, 0x017365717569cc8161,
   0x01736572, 0x017365726965, 0x017365726d6fcc816e, 0x01736572766972,
   0x01736573656e7461, 0x01736573696fcc816e, 0x0173657461, 0x01736574656e7461,
   0x0173657665726f, 0x017365786f, 0x01736578746f, 0x017369647261,
   0x01736965737461, 0x017369657465, 0x017369676c6f, 0x017369676e6f]

/-- Entries 1728 to 1791 of `spanish` (include/cardano/bip39_dictionary.hpp:19718-21766): sílaba … talco -/
def spanish27 : List Nat :=
  [0x017369cc816c616261, 0x0173696c626172, 0x0173696c656e63696f, 0x0173696c6c61,
   0x017369cc816d626f6c6f, 0x0173696d696f, 0x01736972656e61, 0x0173697374656d61,
   0x01736974696f, 0x01736974756172, 0x01736f627265, 0x01736f63696f,
   0x01736f64696f, 0x01736f6c, 0x01736f6c617061, 0x01736f6c6461646f,
   0x01736f6c65646164, 0x01736fcc816c69646f, 0x01736f6c746172, 0x01736f6c7563696fcc816e,
   0x01736f6d627261, 0x01736f6e64656f, 0x01736f6e69646f, 0x01736f6e6f726f,
   0x01736f6e72697361, 0x01736f7061, 0x01736f706c6172, 0x01736f706f727465,
   0x01736f72646f, 0x01736f727072657361, 0x01736f7274656f, 0x01736f737465cc816e,
   0x01736fcc8174616e6f, 0x017375617665, 0x017375626972, 0x0173756365736f,
   0x017375646f72, 0x01737565677261, 0x017375656c6f, 0x017375656ecc836f,
   0x01737565727465, 0x01737566726972, 0x0173756a65746f, 0x0173756c7461cc816e,
   0x0173756d6172, 0x0173757065726172, 0x017375706c6972, 0x017375706f6e6572,
   0x0173757072656d6f, 0x01737572, 0x01737572636f, 0x01737572656ecc836f,
   0x01737572676972, 0x01737573746f, 0x01737574696c, 0x0174616261636f,
   0x0174616269717565, 0x017461626c61, 0x0174616275cc81, 0x017461636f,
   0x01746163746f, 0x0174616a6f, 0x0174616c6172, 0x0174616c636f]

/-- Entries 1792 to 1855 of `spanish` (include/cardano/bip39_dictionary.hpp:19718-21766): talento … timo -/
def spanish28 : List Nat :=
  [0x0174616c656e746f, 0x0174616c6c61, 0x0174616c6fcc816e, 0x0174616d616ecc836f,
   0x0174616d626f72, 0x0174616e676f, 0x0174616e717565, 0x0174617061,
   0x01746170657465, 0x017461706961, 0x017461706fcc816e, 0x0174617175696c6c61,
   0x017461726465, 0x017461726561, 0x01746172696661, 0x017461726a657461,
   0x017461726f74, 0x01746172726f, 0x017461727461, 0x0174617475616a65,
   0x01746175726f, 0x0174617a61, 0x0174617a6fcc816e, 0x0174656174726f,
   0x01746563686f, 0x017465636c61, 0x017465cc81636e696361, 0x0174656a61646f,
   0x0174656a6572, 0x0174656a69646f, 0x0174656c61, 0x0174656c65cc81666f6e6f,
   0x0174656d61, 0x0174656d6f72, 0x0174656d706c6f, 0x0174656e617a,
   0x0174656e646572, 0x0174656e6572, 0x0174656e6973, 0x0174656e736f,
   0x0174656f7269cc8161, 0x0174657261706961, 0x01746572636f, 0x017465cc81726d696e6f,
   0x017465726e757261, 0x01746572726f72, 0x017465736973, 0x017465736f726f,
   0x017465737469676f, 0x01746574657261, 0x01746578746f, 0x0174657a,
   0x01746962696f, 0x0174696275726fcc816e, 0x017469656d706f, 0x017469656e6461,
   0x01746965727261, 0x01746965736f, 0x017469677265, 0x0174696a657261,
   0x0174696c6465, 0x0174696d627265, 0x017469cc816d69646f, 0x0174696d6f]

/-- Entries 1856 to 1919 of `spanish` (include/cardano/bip39_dictionary.hpp:19718-21766): tinta … trozo -/
def spanish29 : List Nat :=
  [0x0174696e7461, 0x017469cc816f, 0x017469cc817069636f, 0x017469706f,
   0x0174697261, 0x017469726fcc816e, 0x0174697461cc816e, 0x017469cc8174657265,
   0x017469cc8174756c6f, 0x0174697a61, 0x01746f616c6c61, 0x01746f62696c6c6f,
   0x01746f636172, 0x01746f63696e6f, 0x01746f646f, 0x01746f6761,
   0x01746f6c646f, 0x01746f6d6172, 0x01746f6e6f, 0x01746f6e746f,
   0x01746f706172, 0x01746f7065, 0x01746f717565, 0x01746fcc81726178,
   0x01746f7265726f, 0x01746f726d656e7461, 0x01746f726e656f, 0x01746f726f,
   0x01746f727065646f, 0x01746f727265, 0x01746f72736f, 0x01746f7274756761,
   0x01746f73, 0x01746f73636f, 0x01746f736572, 0x01746fcc817869636f,
   0x0174726162616a6f, 0x0174726163746f72, 0x017472616572, 0x01747261cc816669636f,
   0x01747261676f, 0x017472616a65, 0x017472616d6f, 0x017472616e6365,
   0x01747261746f, 0x01747261756d61, 0x017472617a6172, 0x01747265cc81626f6c,
   0x01747265677561, 0x01747265696e7461, 0x017472656e, 0x01747265706172,
   0x0174726573, 0x017472696275, 0x01747269676f, 0x017472697061,
   0x01747269737465, 0x01747269756e666f, 0x0174726f66656f, 0x0174726f6d7061,
   0x0174726f6e636f, 0x0174726f7061, 0x0174726f7465, 0x0174726f7a6f]

/-- Entries 1920 to 1983 of `spanish` (include/cardano/bip39_dictionary.hpp:19718-21766): truco … venta -/
def spanish30 : List Nat :=
  [0x01747275636f, 0x01747275656e6f, 0x017472756661, 0x01747562657269cc8161,
   0x017475626f, 0x0174756572746f, 0x0174756d6261, 0x0174756d6f72,
   0x017475cc816e656c, 0x017475cc816e696361, 0x0174757262696e61, 0x0174757269736d6f,
   0x017475726e6f, 0x017475746f72, 0x01756269636172, 0x0175cc816c63657261,
   0x01756d6272616c, 0x01756e69646164, 0x01756e6972, 0x01756e69766572736f,
   0x01756e6f, 0x01756e746172, 0x01756ecc8361, 0x01757262616e6f,
   0x0175726265, 0x01757267656e7465, 0x0175726e61, 0x0175736172,
   0x017573756172696f, 0x0175cc8174696c, 0x0175746f7069cc8161, 0x01757661,
   0x0176616361, 0x0176616369cc816f, 0x01766163756e61, 0x017661676172,
   0x017661676f, 0x017661696e61, 0x0176616a696c6c61, 0x0176616c65,
   0x017661cc816c69646f, 0x0176616c6c65, 0x0176616c6f72, 0x017661cc816c76756c61,
   0x0176616d7069726f, 0x0176617261, 0x01766172696172, 0x017661726fcc816e,
   0x017661736f, 0x01766563696e6f, 0x01766563746f72, 0x0176656869cc8163756c6f,
   0x017665696e7465, 0x0176656a657a, 0x0176656c61, 0x0176656c65726f,
   0x0176656c6f7a, 0x0176656e61, 0x0176656e636572, 0x0176656e6461,
   0x0176656e656e6f, 0x0176656e676172, 0x0176656e6972, 0x0176656e7461]

/-- Entries 1984 to 2047 of `spanish` (include/cardano/bip39_dictionary.hpp:19718-21766): venus … zurdo -/
def spanish31 : List Nat :=
  [0x0176656e7573, 0x01766572, 0x01766572616e6f, 0x01766572626f,
   0x017665726465, 0x01766572656461, 0x017665726a61, 0x01766572736f,
   0x01766572746572, 0x017669cc8161, 0x017669616a65, 0x01766962726172,
   0x01766963696f, 0x017669cc816374696d61, 0x0176696461, 0x017669cc8164656f,
   0x0176696472696f, 0x017669656a6f, 0x01766965726e6573, 0x017669676f72,
   0x0176696c, 0x0176696c6c61, 0x0176696e61677265, 0x0176696e6f,
   0x0176696ecc8365646f, 0x0176696f6c69cc816e, 0x01766972616c, 0x01766972676f,
   0x01766972747564, 0x017669736f72, 0x017669cc817370657261, 0x017669737461,
   0x01766974616d696e61, 0x01766975646f, 0x01766976617a, 0x0176697665726f,
   0x017669766972, 0x017669766f, 0x01766f6c6361cc816e, 0x01766f6c756d656e,
   0x01766f6c766572, 0x01766f72617a, 0x01766f746172, 0x01766f746f,
   0x01766f7a, 0x017675656c6f, 0x0176756c676172, 0x017961636572,
   0x0179617465, 0x017965677561, 0x0179656d61, 0x017965726e6f,
   0x017965736f, 0x01796f646f, 0x01796f6761, 0x01796f677572,
   0x017a616669726f, 0x017a616e6a61, 0x017a617061746f, 0x017a61727a61,
   0x017a6f6e61, 0x017a6f72726f, 0x017a756d6f, 0x017a7572646f]

/-- The table `spanish` (include/cardano/bip39_dictionary.hpp:19718-21766). -/
def spanish : List Nat :=
  spanish0 ++ (spanish1 ++ (spanish2 ++ (spanish3 ++ (spanish4 ++ (spanish5 ++ (spanish6 ++ (spanish7 ++ (spanish8 ++ (spanish9 ++ (spanish10 ++ (spanish11 ++ (spanish12 ++ (spanish13 ++ (spanish14 ++ (spanish15 ++ (spanish16 ++ (spanish17 ++ (spanish18 ++ (spanish19 ++ (spanish20 ++ (spanish21 ++ (spanish22 ++ (spanish23 ++ (spanish24 ++ (spanish25 ++ (spanish26 ++ (spanish27 ++ (spanish28 ++ (spanish29 ++ (spanish30 ++ (spanish31)))))))))))))))))))))))))))))))

end Cardano.Bip39
