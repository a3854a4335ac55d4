/-! Search trees over the dictionary tables (generated; nothing is trusted about them: the checks in
`Bip39Pairs1` and `Bip39Pairs2` say which words they answer for). -/

namespace Cardano.Mnemonic

/-- A search tree of numbers. -/
inductive T where
  | l
  | n (a : T) (x : Nat) (b : T)

open T

/-- Membership in a search tree.  (Written with recursors, as the kernel has to evaluate it.) -/
noncomputable def T.has (x : Nat) (t : T) : Bool :=
  T.rec (motive := fun _ => Bool) false (fun _ y _ ia ib => Bool.rec (motive := fun _ => Bool) (Bool.rec (motive := fun _ => Bool) ib ia (Nat.ble x y)) true (Nat.beq x y)) t

/-- All numbers of the list are found. -/
noncomputable def allIn (t : T) : List Nat → Bool
  | [] => true
  | x :: r => bif t.has x then allIn t r else false

/-- No number of the list is found. -/
noncomputable def noneIn (t : T) : List Nat → Bool
  | [] => true
  | x :: r => bif t.has x then false else noneIn t r

theorem allIn_sound {t : T} : ∀ {l : List Nat}, allIn t l = true → ∀ x ∈ l, t.has x = true := by
  intro l
  induction l with
  | nil => intro _ x hx; cases hx
  | cons y l ih =>
    intro h x hx
    rw [allIn] at h
    cases hy : t.has y with
    | false => rw [hy] at h; cases h
    | true =>
      rw [hy] at h
      rcases List.mem_cons.mp hx with rfl | hx
      · exact hy
      · exact ih h x hx

theorem noneIn_sound {t : T} : ∀ {l : List Nat}, noneIn t l = true → ∀ x ∈ l, t.has x = false := by
  intro l
  induction l with
  | nil => intro _ x hx; cases hx
  | cons y l ih =>
    intro h x hx
    rw [noneIn] at h
    cases hy : t.has y with
    | true => rw [hy] at h; cases h
    | false =>
      rw [hy] at h
      rcases List.mem_cons.mp hx with rfl | hx
      · exact hy
      · exact ih h x hx

/-- No position holds the same number in both lists. -/
def neZip : List Nat → List Nat → Bool
  | a :: r, b :: s => bif Nat.beq a b then false else neZip r s
  | _, _ => true

/-- The elements of the second list that differ from the first list's at the same place. -/
def diffZip : List Nat → List Nat → List Nat
  | a :: r, b :: s => bif Nat.beq a b then diffZip r s else b :: diffZip r s
  | _, _ => []

def tCzech0000 : T := (n (n (n (n (n (n (n (n l 5929395045 l) 5929461098 l) 5929987948 (n l 5930383724 l)) 5945517938 (n (n l 5946242404 l) 5946434162 (n l 5946438753 l))) 5946633071 (n (n (n l 5946636921 l) 5962556530 (n l 5962558062 l)) 5962558561 (n (n l 5962755958 l) 5962756724 (n l 5963606898 l)))) 5963669868 (n (n (n (n l 5963671915 l) 5979335532 (n l 5979599723 l)) 5979923827 (n (n l 5979991393 l) 5979992692 (n l 5980184939 l))) 5980383329 (n (n (n l 5996834675 l) 5997028714 (n l 6013546084 l)) 6030516582 (n (n l 6030517616 l) 6030518636 (n l 6030520167 l))))) 6030716257 (n (n (n (n (n l 6046180466 l) 6046182497 (n l 6046901614 l)) 6046904168 (n (n l 6046966132 l) 6046972282 (n l 6047033715 l))) 6047097704 (n (n (n l 6047102310 l) 6047297396 (n l 6047493490 l)) 6079738479 (n (n l 6096515186 l) 6096515937 (n l 6096776560 l)))) 6097038959 (n (n (n (n l 6097232237 l) 6097233251 (n l 6097234276 l)) 6097298798 (n (n l 6097366900 l) 6097431663 (n l 6097435233 l))) 6097629035 (n (n (n l 6097631604 l) 6097823346 (n l 6097825377 l)) 6097826420 (n (n l 6113290603 l) 6113293167 (n l 6114210404 l)))))) 6114210930 (n (n (n (n (n (n l 6114211176 l) 6114602352 (n l 6114603883 l)) 6114865761 (n (n l 6130332786 l) 6130788449 (n l 6130790251 l))) 6130987892 (n (n (n l 6131704929 l) 6147105381 (n l 6147109494 l)) 6147369836 (n (n l 6147764833 l) 6148154465 (n l 6163685740 l)))) 6163686755 (n (n (n (n l 6163690870 l) 6163751283 (n l 6163752300 l)) 6164275568 (n (n l 6164278895 l) 6164406635 (n l 6164412780 l))) 6164868976 (n (n (n l 6164996466 l) 6164997491 (n l 6165129572 l)) 6180399988 (n (n l 6180663919 l) 6180923489 (n l 6181118330 l))))) 6181119347 (n (n (n (n (n l 6181121647 l) 6181123435 (n l 6181124462 l)) 6181516660 (n (n l 6181708648 l) 6181708908 (n l 6181710964 l))) 6181711459 (n (n (n l 6181712737 l) 6181974891 (n l 6213953140 l)) 6214874480 (n (n l 6215524961 l) 6230731631 (n l 6230798194 l)))) 6230994543 (n (n (n (n l 6231387247 l) 6231388794 (n l 6231452002 l)) 6231453550 (n (n l 6231456353 l) 6231519079 (n l 6231519851 l))) 6231581028 (n (n (n l 6231584610 l) 6231714163 (n l 6231843194 l)) 6231846497 (n (n l 6231847796 l) 6231848290 (n l 6231980395 l)))))))
def tCzech0001 : T := (n (n (n (n (n (n (n l 6248293740 l) 6248625523 (n l 6248817785 l)) 6248886906 (n (n l 6249080690 l) 6264416367 (n l 6265397614 l))) 6265922924 (n (n (n l 6281064033 l) 6281587809 (n l 6281591397 l)) 6281721203 (n (n l 6281781611 l) 6281783670 (n l 6281917803 l)))) 6281978977 (n (n (n (n l 6282174824 l) 6282175073 (n l 6282307952 l)) 6348696929 (n (n l 6348894061 l) 6348956018 (n l 6349021547 l))) 6349287023 (n (n (n l 6349480562 l) 6349549422 (n l 6349551979 l)) 1518042572897 (n (n l 1518060465505 l) 1518076715379 (n l 1522052262753 l))))) 1522052327788 (n (n (n (n (n l 1522052656751 l) 1522052921953 (n l 1522053309812 l)) 1522053314145 (n (n l 1522053443432 l) 1522119503457 (n l 1522120417646 l))) 1522120552302 (n (n (n l 1522186611823 l) 1522187662945 (n l 1522188054382 l)) 1522237010795 (n (n l 1522287142251 l) 1522288190819 (n l 1522288387169 l)))) 1522288389221 (n (n (n (n l 1522288584050 l) 1522337412210 (n l 1522338131816 l)) 1522338328186 (n (n l 1522339046497 l) 1522387938145 (n l 1522388067700 l))) 1522388465249 (n (n (n l 1522388591713 l) 1522388593522 (n l 1522388859489 l)) 1522388986219 (n (n l 1522389118828 l) 1526414861160 (n l 1526414992754 l)))))) 1526415518561 (n (n (n (n (n (n l 1526464607329 l) 1526465323364 (n l 1526465389932 l)) 1526465721712 (n (n l 1526465978740 l) 1526466175585 (n l 1526481841249 l))) 1526532632161 (n (n (n l 1526683692916 l) 1530643375468 (n l 1530643379565 l)) 1530675950177 (n (n l 1530710352505 l) 1530710420321 (n l 1530777265249 l)))) 1530826680417 (n (n (n (n l 1530877080175 l) 1530877473377 (n l 1530877601133 l)) 1530877731186 (n (n l 1530877800310 l) 1530877993316 (n l 1530877995379 l))) 1530878189928 (n (n (n l 1530878195044 l) 1530878255482 (n l 1530878256491 l)) 1530927348325 (n (n l 1530927542124 l) 1530928265828 (n l 1530928589172 l))))) 1530977740142 (n (n (n (n (n l 1530977871211 l) 1530978855284 (n l 1530978856559 l)) 1535138425196 (n (n l 1535138952037 l) 1535139341157 (n l 1539232197473 l))) 1539300027233 (n (n (n l 1539367007346 l) 1539367138401 (n l 1539383980644 l)) 1539417141876 (n (n l 1539468192609 l) 1539468193646 (n l 1539568263538 l)))) 1543711844980 (n (n (n (n l 1543762634093 l) 1547822850657 (n l 1547823113825 l)) 1547889700463 (n (n l 1547889831265 l) 1547890222435 (n l 1547890224737 l))) 1547890289775 (n (n (n l 1547890748281 l) 1548006553185 (n l 1548007793012 l)) 1548024247393 (n (n l 1548041024884 l) 1548056948586 (n l 1548057535850 l)))))))
def tCzech000 : T := n tCzech0000 6232105320 tCzech0001
def tCzech0010 : T := (n (n (n (n (n (n (n l 1548057605474 l) 1548057993580 (n l 1548057994337 l)) 1548057996143 (n (n l 1548058190433 l) 1548058259314 (n l 1548107410543 l))) 1548108064107 (n (n (n l 1548157739617 l) 1548158201716 (n l 1548175243876 l)) 1548225441377 (n (n l 1552235259236 l) 1552285658721 (n l 1552302832229 l)))) 1556413112686 (n (n (n (n l 1556413116015 l) 1556413180769 (n l 1556413312882 l)) 1556413577579 (n (n l 1556479241317 l) 1556479700852 (n l 1556479763822 l))) 1556479897453 (n (n (n l 1556480420212 l) 1556547002731 (n l 1556547003513 l)) 1556547794529 (n (n l 1556748596321 l) 1560706966892 (n l 1560707097972 l))))) 1560707359086 (n (n (n (n (n l 1560707490155 l) 1560707555695 (n l 1560707690081 l)) 1560707755877 (n (n l 1560707885921 l) 1560707886181 (n l 1560708211557 l))) 1560708217441 (n (n (n l 1560757498729 l) 1560891454830 (n l 1560891977057 l)) 1560892371041 (n (n l 1560892372322 l) 1560909149298 (n l 1560925530209 l)))) 1560941849441 (n (n (n (n l 1560942440307 l) 1560942569835 (n l 1560942633332 l)) 1560942634339 (n (n l 1560942766437 l) 1560943027564 (n l 1560992113512 l))) 1560992643685 (n (n (n l 1560993359211 l) 1561043102817 (n l 1561043168097 l)) 1561043691884 (n (n l 1561110801249 l) 1565002657889 (n l 1565069044577 l)))))) 1565069174126 (n (n (n (n (n (n l 1565069371749 l) 1565069435749 (n l 1565070222691 l)) 1565070224751 (n (n l 1565136155233 l) 1565136807275 (n l 1565136939365 l))) 1565136939873 (n (n (n l 1565237405044 l) 1565237931891 (n l 1565238061921 l)) 1565238125923 (n (n l 1565354713957 l) 1569297031533 (n l 1569297034351 l)))) 1569297490283 (n (n (n (n l 1569297556065 l) 1569297689455 (n l 1569365191777 l)) 1569432234849 (n (n l 1569432237170 l) 1569482563956 (n l 1569515463528 l))) 1569531783532 (n (n (n l 1569532375663 l) 1569532895610 (n l 1569533355371 l)) 1569533357932 (n (n l 1569582703990 l) 1569583687028 (n l 1569632580195 l))))) 1569633100148 (n (n (n (n (n l 1569633167717 l) 1569633559924 (n l 1573592722287 l)) 1573659044729 (n (n l 1573659112808 l) 1573659370868 (n l 1573659501934 l))) 1573659701091 (n (n (n l 1573726609771 l) 1573726675309 (n l 1573726676089 l)) 1573727269487 (n (n l 1573827798379 l) 1573828000357 (n l 1573927545957 l)))) 1573927740788 (n (n (n (n l 1573928593780 l) 1573995243105 (n l 1577903552097 l)) 1577903745398 (n (n l 1577904268651 l) 1577904402291 (n l 1577904469364 l))) 1577904664161 (n (n (n l 1577904666995 l) 1577904726376 (n l 1577904923002 l)) 1577904926564 (n (n l 1577905188722 l) 1577937170282 (n l 1577937172852 l)))))))
def tCzech0011 : T := (n (n (n (n (n (n (n l 1577937756538 l) 1577937824118 (n l 1577938084196 l)) 1577938086259 (n (n l 1577938087794 l) 1577938285934 (n l 1577938349931 l))) 1577938351460 (n (n (n l 1577971183201 l) 1578004930931 (n l 1578055464569 l)) 1578055656819 (n (n l 1578055660904 l) 1578138952549 (n l 1578139349601 l)))) 1578172377445 (n (n (n (n l 1578172706666 l) 1578173228396 (n l 1578188760161 l)) 1578189286241 (n (n l 1578189289071 l) 1578189677153 (n l 1578190005614 l))) 1578206065515 (n (n (n l 1578206654315 l) 1578206916466 (n l 1578240009061 l)) 1582182458723 (n (n l 1582182592097 l) 1582182855777 (n l 1582248979297 l))))) 1582249503855 (n (n (n (n (n l 1582249704037 l) 1582316612709 (n l 1582366548840 l)) 1582367140212 (n (n l 1582367208820 l) 1582416689524 (n l 1582416750964 l))) 1582416814452 (n (n (n l 1582417082722 l) 1582417276778 (n l 1582417279342 l)) 1582417407843 (n (n l 1582417601900 l) 1582417605988 (n l 1582417732453 l)))) 1582417735524 (n (n (n (n l 1582417738102 l) 1582417798500 (n l 1582417803632 l)) 1582417863016 (n (n l 1582417933423 l) 1582417997690 (n l 1582418000235 l))) 1582418259826 (n (n (n l 1582466954085 l) 1582467608175 (n l 1582468326763 l)) 1582518071393 (n (n l 1582518265198 l) 1582585636204 (n l 1590771803499 l)))))) 1590771871598 (n (n (n (n (n (n l 1590772064889 l) 1590772524133 (n l 1590772855922 l)) 1590840159585 (n (n l 1591007210597 l) 1591007735660 (n l 1591007867489 l))) 1591008195949 (n (n (n l 1591174524015 l) 1595067097460 (n l 1595067426147 l)) 1595068277345 (n (n l 1595133946991 l) 1595134407777 (n l 1595134932342 l)))) 1595134992993 (n (n (n (n l 1595135124850 l) 1595184997473 (n l 1595201187694 l)) 1595201973089 (n (n l 1595201975664 l) 1595234415988 (n l 1595234935649 l))) 1595235136890 (n (n (n l 1595235328609 l) 1595235332719 (n l 1595251192692 l)) 1595251455585 (n (n l 1595251715681 l) 1595252110959 (n l 1595252499304 l))))) 1595252500577 (n (n (n (n (n l 1595269079396 l) 1595269542764 (n l 1595284744289 l)) 1595301652577 (n (n l 1595302178668 l) 1595302505313 (n l 1595302770273 l))) 1595319017846 (n (n (n l 1595319217269 l) 1595352048485 (n l 1595352704355 l)) 1595352835438 (n (n l 1595386327137 l) 1595386520947 (n l 1595386523501 l)))) 1595386785644 (n (n (n (n l 1595402841711 l) 1595419227250 (n l 1595420074338 l)) 1595469950836 (n (n l 1595470144875 l) 1595470274932 (n l 1595470472556 l))) 1599362197345 (n (n (n l 1599362197876 l) 1599362458979 (n l 1599429174393 l)) 1599429570418 (n (n l 1599429701217 l) 1599495956591 (n l 1599547469921 l)))))))
def tCzech001 : T := n tCzech0010 1577937692020 tCzech0011
def tCzech00 : T := n tCzech000 1548057602913 tCzech001
def tCzech0100 : T := (n (n (n (n (n (n (n l 1599597607535 l) 1599597799521 (n l 1599646821744 l)) 1599646823265 (n (n l 1599647085428 l) 1599647802213 (n l 1599648194932 l))) 1599764915574 (n (n (n l 1603674274405 l) 1603674464628 (n l 1603674469747 l)) 1603841647461 (n (n l 1603841651809 l) 1603975995764 (n l 1604076855668 l)))) 1607951937390 (n (n (n (n l 1607952654702 l) 1607985557348 (n l 1608002795105 l)) 1608018850415 (n (n l 1608019239781 l) 1608019769957 (n l 1608019833953 l))) 1608085891186 (n (n (n l 1608085957733 l) 1608086938996 (n l 1608102804068 l)) 1608120033636 (n (n l 1608136357487 l) 1608187014753 (n l 1608187142753 l))))) 1608187144564 (n (n (n (n (n l 1608187145839 l) 1608236758113 (n l 1608237212020 l)) 1608254780784 (n (n l 1608354390388 l) 1608354394721 (n l 1608354784628 l))) 1608370971765 (n (n (n l 1608371171186 l) 1608371626362 (n l 1608371825003 l)) 1608372216168 (n (n l 1608372217195 l) 1625132000628 (n l 1625182271087 l)))) 1625182859114 (n (n (n (n l 1625183119720 l) 1625199305070 (n l 1625315964015 l)) 1625316876897 (n (n l 1625316881268 l) 1625333262949 (n l 1625350436469 l))) 1625384187509 (n (n (n l 1625416623201 l) 1625484845428 (n l 388559020585825 l)) 388571905487717 (n (n l 388601685631347 l) 388601852818529 (n l 388602004073313 l)))))) 388623243504756 (n (n (n (n (n (n l 389645395849074 l) 389645462762593 (n l 389645546382433 l)) 389645547040622 (n (n l 389645547757934 l) 389645563229555 (n l 389645647110514 l))) 389645647831406 (n (n (n l 389645647965039 l) 389645714878049 (n l 389645782575969 l)) 389662843954273 (n (n l 389662844938597 l) 389662961921891 (n l 389662962377067 l)))) 389679756700524 (n (n (n (n l 389679806702955 l) 389679889870457 (n l 389679957176167 l)) 389692673714273 (n (n l 389692741345652 l) 389692742332001 (n l 389705643028340 l))) 389705676190580 (n (n (n l 389705826985324 l) 389705828032884 (n l 389718377130849 l)) 389718444373089 (n (n l 389731295196257 l) 389731312432737 (n l 389731445927787 l))))) 389731681528929 (n (n (n (n (n l 389748492100980 l) 389748626124385 (n l 389753072217972 l)) 390745125122676 (n (n l 390762104974437 l) 390762238535021 (n l 390762271960673 l))) 390762273075058 (n (n (n l 390775006128485 l) 390775123042913 (n l 390775140872801 l)) 390775173181300 (n (n l 390775173309025 l) 390775174097268 (n l 390775224166772 l)))) 390775291474804 (n (n (n (n l 390775342131572 l) 390779251289189 (n l 390779451961204 l)) 390779519071603 (n (n l 390779551966053 l) 390779553084787 (n l 390779653550964 l))) 390805339922804 (n (n (n l 390826613302636 l) 390826696864628 (n l 390830940845153 l)) 390835353644916 (n (n l 391844569901935 l) 391844670562913 (n l 391861581739105 l)))))))
def tCzech0101 : T := (n (n (n (n (n (n (n l 391878997208941 l) 391879098065768 (n l 391891865921647 l)) 391904548449908 (n (n l 391904565814643 l) 391904632792420 (n l 391904632988769 l))) 391904683123044 (n (n (n l 391904683322465 l) 391904683650930 (n l 391904699446881 l)) 391904699706977 (n (n l 391904800764788 l) 391904817344374 (n l 391904818197601 l)))) 391904850502004 (n (n (n (n l 391904934061173 l) 391904934912372 (n l 391917400909155 l)) 391917819884404 (n (n l 391930604122996 l) 391934815397219 (n l 392987081994087 l))) 392991276561249 (n (n (n l 393008556238945 l) 393008557090154 (n l 393021274088293 l)) 393021375475055 (n (n l 393042933543540 l) 394043559668577 (n l 394043828694117 l))))) 394077768805217 (n (n (n (n (n l 394078153958245 l) 394090653836652 (n l 394103840206706 l)) 394103856718188 (n (n l 394116423443301 l) 394116491078497 (n l 394116658525281 l))) 394129526448997 (n (n (n l 394146907515745 l) 395143104784997 (n l 395143205187188 l)) 395160335445863 (n (n l 395203368807265 l) 396242482455397 (n l 396242785034606 l)))) 396259763118444 (n (n (n (n l 396259780485490 l) 396289743544692 (n l 396302612000377 l)) 396302612193652 (n (n l 396302763388005 l) 396302847143790 (n l 396302897668468 l))) 396302897867617 (n (n (n l 396315446239841 l) 396315447682145 (n l 396315496902241 l)) 396315497296756 (n (n l 396315680992097 l) 396315682235489 (n l 396315682563438 l)))))) 396315749280609 (n (n (n (n (n (n l 396315850334580 l) 396328633463905 (n l 397355231505249 l)) 397397945578351 (n (n l 397415193405797 l) 398441472355183 (n l 398441488872545 l))) 398441573213281 (n (n (n l 398441623548788 l) 398441674203506 (n l 398458752885102 l)) 398458819802223 (n (n l 398458886906725 l) 398459054351715 (n l 398459054420591 l)))) 398476033614696 (n (n (n (n l 398476117242465 l) 398501686375028 (n l 399541000498785 l)) 399541118792801 (n (n l 399541135504755 l) 399541151556210 (n l 399541168075361 l))) 399541185834866 (n (n (n l 399541218405473 l) 399541219062881 (n l 399541252943726 l)) 399541386179681 (n (n l 399588211254635 l) 399588212109172 (n l 399588279083617 l))))) 399588279214452 (n (n (n (n (n l 399588346523233 l) 399588446658926 (n l 399588547846516 l)) 399592641552756 (n (n l 399601114377313 l) 399601130501490 (n l 399601214387572 l))) 399601280577651 (n (n (n l 399601280836705 l) 399601281104485 (n l 399601297618017 l)) 399601298272865 (n (n l 399601298334067 l) 399601314655841 (n l 399601381303660 l)))) 399601382225267 (n (n (n (n l 399601382551137 l) 399601382814831 (n l 399601382876532 l)) 399601399262049 (n (n l 399601415714156 l) 399601432224116 (n l 399601432749419 l))) 399601433209967 (n (n (n l 399601448415082 l) 399614048233844 (n l 399614049215073 l)) 399614115800436 (n (n l 399614116391275 l) 399614182782575 (n l 399614215938414 l)))))))
def tCzech010 : T := n tCzech0100 391861733844340 tCzech0101
def tCzech0110 : T := (n (n (n (n (n (n (n l 399614217121889 l) 399614217186145 (n l 399614384567393 l)) 399627050902376 (n (n l 399627152682866 l) 399644364468833 (n l 399644364989285 l))) 400640679701601 (n (n (n l 400640780624741 l) 400640830959201 (n l 400657692189817 l)) 400675157143137 (n (n l 400700708842337 l) 400700859315297 (n l 400700860621672 l)))) 400700943393132 (n (n (n (n l 400743843064673 l) 400743859842657 (n l 401740174814817 l)) 401740208041061 (n (n l 401740291730290 l) 401740292386676 (n l 401740309029733 l))) 401740409697903 (n (n (n l 401740409891188 l) 401753060106849 (n l 401757354160993 l)) 401757355079022 (n (n l 401757489292385 l) 401757589303905 (n l 401774468230245 l))))) 401774517775969 (n (n (n (n (n l 401774534947700 l) 401774551329633 (n l 401787571300724 l)) 401796059653485 (n (n l 401800238296161 l) 401800338303852 (n l 401800339027310 l))) 401800421931380 (n (n (n l 401800439622497 l) 401800454957153 (n l 401813004971890 l)) 401825973694318 (n (n l 401826107712357 l) 401826207851365 (n l 401826308781421 l)))) 402839551697765 (n (n (n (n l 402839552159610 l) 402839552682355 (n l 402839619527027 l)) 402839619658100 (n (n l 402839686182511 l) 402839737229675 (n l 402839787889273 l))) 402839804600692 (n (n (n l 402839854801768 l) 402839922172276 (n l 402856715247988 l)) 402856731631988 (n (n l 402856781898597 l) 402856799593569 (n l 402856849729892 l)))))) 402856916970337 (n (n (n (n (n (n l 402856967369588 l) 402857001381746 (n l 402857017896814 l)) 402857034083937 (n (n l 402873895580769 l) 402899665184104 (n l 402899983756921 l))) 402899984151649 (n (n (n l 402900050539105 l) 402925720594789 (n l 403943459220340 l)) 403943492514676 (n (n l 403943493034593 l) 403943493429345 (n l 403943493821537 l)))) 403943543432555 (n (n (n (n l 403943594484321 l) 403947670890868 (n l 403947721290849 l)) 403951931912036 (n (n l 403951966647905 l) 403952083757921 (n l 403952099945313 l))) 403952201135472 (n (n (n l 403952250218593 l) 403952250483809 (n l 403952318177643 l)) 403960789822052 (n (n l 403969362977889 l) 403982147742561 (n l 403982247883617 l))))) 403982249059691 (n (n (n (n (n l 403982299327329 l) 403982299392372 (n l 403990621350260 l)) 403990738466401 (n (n l 403994915136633 l) 404003438683499 (n l 404003723637865 l))) 404012212511589 (n (n (n l 404016506959457 l) 404016507808116 (n l 404016541431393 l)) 404016558008692 (n (n l 404016642483297 l) 404016642745192 (n l 404020903043444 l)))) 404020903895673 (n (n (n (n l 404046438425185 l) 405038709700207 (n l 405038710481505 l)) 405038743251809 (n (n l 405038811147105 l) 405038811406945 (n l 405038826875745 l))) 405038843653748 (n (n (n l 405038877865323 l) 405055856665963 (n l 405056023782245 l)) 405056090633071 (n (n l 405073052985707 l) 405073069436513 (n l 405073136284769 l)))))))
def tCzech0111 : T := (n (n (n (n (n (n (n l 405085770048878 l) 405085770508660 (n l 405085837227105 l)) 405085837747564 (n (n l 405085904855412 l) 405086004275297 (n l 405086004929121 l))) 405098688180068 (n (n (n l 405098705348971 l) 405098705412705 (n l 405098705609082 l)) 405098705874788 (n (n l 405098706135405 l) 405098722912613 (n l 405098789237857 l)))) 405098822657395 (n (n (n (n l 405098823053163 l) 405098823251041 (n l 405098839631969 l)) 405098855492725 (n (n l 405098856213345 l) 405098856674401 (n l 405098907001204 l))) 405098956680289 (n (n (n l 405098956812139 l) 405098973585774 (n l 405098974244961 l)) 405098990363002 (n (n l 405099006486625 l) 405099007205739 (n l 405099007599464 l))))) 405099074969972 (n (n (n (n (n l 405111539787123 l) 405111540442209 (n l 405111774143850 l)) 405111774409313 (n (n l 405111774929252 l) 405111775063915 (n l 405111775126113 l))) 405111775194990 (n (n (n l 405111775322490 l) 405111842301294 (n l 405115834885475 l)) 405116070293348 (n (n l 405116153918824 l) 405124592856165 (n l 405124744309601 l)))) 407237581893492 (n (n (n (n l 407237715915873 l) 407237749468783 (n l 407237833089896 l)) 407237833618529 (n (n l 407254728401765 l) 407254761566324 (n l 407254812353912 l))) 407254879596395 (n (n (n l 407254896439908 l) 407254896637300 (n l 407254896766834 l)) 407255080598117 (n (n l 407272327572335 l) 407297846111087 (n l 407297962895987 l)))))) 407298013096047 (n (n (n (n (n (n l 407298030268001 l) 407298096918386 (n l 407298097045876 l)) 407298097504634 (n (n l 407298097635698 l) 407298097832292 (n l 407298098028904 l))) 407298098098027 (n (n (n l 407298098229092 l) 407340946386529 (n l 407341047444340 l)) 408337261753441 (n (n l 408354273194853 l) 408354357666164 (n l 408354407412321 l)))) 408354440965743 (n (n (n (n l 408354525964659 l) 408354542022507 (n l 408354542084468 l)) 408354542613089 (n (n l 408354558668385 l) 408354558796148 (n l 408354659656045 l))) 408380244713838 (n (n (n l 408380362421108 l) 408380362616417 (n l 408384372237667 l)) 408384640541541 (n (n l 408384640674657 l) 408388885572449 (n l 408388935902571 l))))) 408397206746209 (n (n (n (n (n l 408397524660074 l) 408397524724084 (n l 408397524788069 l)) 408397525311844 (n (n l 408397525771620 l) 408397525839723 (n l 408401719092587 l))) 408401769359457 (n (n (n l 408410074801249 l) 408418665259617 (n l 408418731454063 l)) 408418732632929 (n (n l 408418899486059 l) 408418899881583 (n l 408418949096296 l)))) 408418950409825 (n (n (n (n l 408418999627361 l) 408422992863602 (n l 408423010104180 l)) 408423177150836 (n (n l 408423177876852 l) 408427255063137 (n l 408427255457131 l))) 408427389217893 (n (n (n l 408427389281643 l) 408427489815393 (n l 408440458408820 l)) 409436589223013 (n (n l 409436689495406 l) 409436722460014 (n l 409436772920421 l)))))))
def tCzech011 : T := n tCzech0110 405085769916788 tCzech0111
def tCzech01 : T := n tCzech010 399614216792436 tCzech011
def tCzech0 : T := n tCzech00 1599597473644 tCzech01
def tCzech1000 : T := (n (n (n (n (n (n (n l 409436789892466 l) 409436823057505 (n l 409454003779173 l)) 409454138124652 (n (n l 409483816758113 l) 409484151975796 (n l 409497036940643 l))) 409509653014900 (n (n (n l 409509654327154 l) 409509820590197 (n l 409509821639521 l)) 409509821768289 (n (n l 409509921187171 l) 409522588840820 (n l 409522688782945 l)))) 409522756542826 (n (n (n (n l 409526766563176 l) 409527001440865 (n l 410549103257972 l)) 410574939714932 (n (n l 410583563659636 l) 410591918713204 (n l 410609098844532 l))) 410613611197812 (n (n (n l 410613711659380 l) 410626277796212 (n l 410643642019425 l)) 411635779070049 (n (n l 411635779859822 l) 411635812688236 (n l 411644252154741 l))))) 411652959596387 (n (n (n (n (n l 411652993019766 l) 411670004985441 (n l 411670172754789 l)) 411682839620449 (n (n l 411682840208739 l) 411695876107119 (n l 411695908482676 l))) 411700304115311 (n (n (n l 411708608898403 l) 411708608963956 (n l 411708912072289 l)) 411708928912485 (n (n l 411712903997812 l) 411738691494260 (n l 411738960191860 l)))) 411738976512879 (n (n (n (n l 411739093885300 l) 411743020213096 (n l 411743204566379 l)) 416033658790260 (n (n l 416033893736820 l) 416037937244532 (n l 416038222394229 l))) 416038339765611 (n (n (n l 416046526917985 l) 416046760749428 (n l 416051022622305 l)) 416051073671540 (n (n l 416051240199285 l) 416063706917236 (n l 416063992193633 l)))))) 416080953109345 (n (n (n (n (n (n l 416085181752683 l) 416085316363636 (n l 416094106051947 l)) 416098350626401 (n (n l 416106656196980 l) 416106891603553 (n l 416115379628129 l))) 416123903175541 (n (n (n l 99468854377669729 l) 99478814609271649 (n l 99479875465277292 l)) 99482044524686177 (n (n l 99489809724241267 l) 99749221555268449 (n l 99749225515214188 l)))) 99749259942062945 (n (n (n (n l 99749260109440363 l) 99749294301670241 (n l 99749320003971937 l)) 99753718184831841 (n (n l 99758055967581029 l) 99758068953407846 (n l 99761324488485989 l))) 99761367722256756 (n (n (n l 99764618861833825 l) 99764618895783284 (n l 99764644682817908 l)) 99764648977529203 (n (n l 99764691725214068 l) 99767938854515809 (n l 99767964758926710 l))))) 99771207341665889 (n (n (n (n (n l 99771215881987436 l) 99771246164140901 (n l 99775682748771169 l)) 100030760688709217 (n (n l 100035133115556709 l) 100035141705888628 (n l 100035141723122529 l))) 100035141806749037 (n (n (n l 100038384373035105 l) 100038384472912993 (n l 100038418580926324 l)) 100038418833437287 (n (n l 100038431767423348 l) 100038444350730092 (n l 100038444501529185 l)))) 100038444518962548 (n (n (n (n l 100038444602843745 l) 100038457202601844 (n l 100038470137376353 l)) 100038470406136180 (n (n l 100038474516425569 l) 100038487569621364 (n l 100039513831403105 l))) 100039591208052067 (n (n (n l 100046123953842550 l) 100052690942260084 (n l 100316569353217388 l)) 100316582238185844 (n (n l 100316582288384869 l) 100316625338987365 (n l 100321036237301098 l)))))))
def tCzech1001 : T := (n (n (n (n (n (n (n l 100327560444142955 l) 100327594618610533 (n l 100327611916642676 l)) 100327620355189108 (n (n l 100327620405851492 l) 100327628761360756 (n l 100327641964241268 l))) 100327646176109413 (n (n (n l 100327663355454309 l) 100330854398522465 (n l 100330931808596852 l)) 100334183116073825 (n (n l 100335312607732581 l) 100338606696917364 (n l 100606896124488037 l)))) 100610165013701729 (n (n (n (n l 100613471954170977 l) 100614562807903329 (n l 100615649502587237 l)) 100616787618784101 (n (n l 100618943675589477 l) 100618969612974693 (n l 100618990936619621 l))) 100619008216230772 (n (n (n l 100875155821851745 l) 100875168371730795 (n l 100875202966219124 l)) 100879549305483118 (n (n l 100883956110094182 l) 100883964464358245 (n l 100887267612650593 l))))) 101168682561270369 (n (n (n (n (n l 101175279429708901 l) 101438109801933665 (n l 101438118559770995 l)) 101438135756746337 (n (n l 101442464999502708 l) 101442499510100334 (n l 101442512076697453 l))) 101450243033886305 (n (n (n l 101452416421557871 l) 101453460132163169 (n l 101453468756046945 l)) 101453468773278068 (n (n l 101453494525850484 l) 101453503031831393 (n l 101453511622156897 l)))) 101453528885194337 (n (n (n (n l 101453528969803375 l) 101453533214106721 (n l 101453533280824929 l)) 101456754405630821 (n (n l 101456754540245876 l) 101456758717572459 (n l 101456814517871713 l))) 101456840104047476 (n (n (n l 101460057235879284 l) 101460130350986337 (n l 101464455282389876 l)) 101464463938514548 (n (n l 101464476672683617 l) 101732817723552865 (n l 101733852659802981 l)))))) 101733852776588133 (n (n (n (n (n (n l 101733891599065957 l) 101733938559607653 (n l 102001055594277989 l)) 102001059923649891 (n (n l 102001085658526315 l) 102005423509235043 (n l 102005462247895924 l))) 102005487867028850 (n (n (n l 102009886164874337 l) 102282491715544436 (n l 102282491849500020 l)) 102282500438781039 (n (n l 102282534782465145 l) 102282534883128180 (n l 102282543388320108 l)))) 102282552180700257 (n (n (n (n l 102282560434693484 l) 102282560670034785 (n l 102282569024565095 l)) 102282569091150433 (n (n l 102282577614497123 l) 102282594794236769 (n l 102294582098228847 l))) 102294582349884257 (n (n (n l 102294642194609515 l) 102297880767325029 (n l 102297884945442147 l)) 102297885062293601 (n (n l 102297919304918371 l) 102297923850955372 (n l 102297932122711151 l))))) 102297932339967073 (n (n (n (n (n l 102297936450646132 l) 102297936467682149 (n l 102297936500978533 l)) 102297936518604147 (n (n l 102297936585912947 l) 102297936735595380 (n l 102297945007613283 l))) 102297945225786740 (n (n (n l 102297957892908387 l) 102297962371445857 (n l 102297988192431976 l)) 102301179134436197 (n (n l 102301179268656737 l) 102301179469460577 (n l 102301196448129394 l)))) 102301196649591905 (n (n (n (n l 102301222068184419 l) 102301230724572515 (n l 102301239465306977 l)) 102301265268663141 (n (n l 102301265336169332 l) 102301269446519649 (n l 102301282230365285 l))) 102301282499584364 (n (n (n l 102304516525749108 l) 102304524897248353 (n l 102304525132326260 l)) 102304525216739937 (n (n l 102305577348723809 l) 102305594646753138 (n l 102308931768708967 l)))))))
def tCzech100 : T := n tCzech1000 100321048870022255 tCzech1001
def tCzech1010 : T := (n (n (n (n (n (n (n l 102308965893041263 l) 102563971104792942 (n l 102563975500100468 l)) 102564005581514083 (n (n l 102564018467007329 l) 102564040025666145 (n l 102564044135623521 l))) 102568373546214245 (n (n (n l 102568373563845473 l) 102568373680434785 (n l 102568386280449121 l)) 102568386497700709 (n (n l 102568390676149108 l) 102568390726481268 (n l 102568403712500082 l)))) 102568424935156577 (n (n (n (n l 102568425001610351 l) 102568442047261807 (n l 102568450754441844 l)) 102568450871947115 (n (n l 102572771609568612 l) 102572797145277795 (n l 102572810097159009 l))) 102572840329830772 (n (n (n l 102579359989331041 l) 102579368579460964 (n l 102579381564630372 l)) 102579441760952692 (n (n l 102585961286889057 l) 102585961353209202 (n l 102845463278089330 l))))) 102845467438051182 (n (n (n (n (n l 102845476095944043 l) 102845476163052908 (n l 102845480608033889 l)) 102845484853780852 (n (n l 102845484970369893 l) 102845489047563105 (n l 102845510606353268 l))) 102845519263001441 (n (n (n l 102845544747918691 l) 102845545083726689 (n l 102854259520922469 l)) 102854263749703028 (n (n l 102854280778507619 l) 102854289434763634 (n l 102854289536148852 l)))) 102854332486410612 (n (n (n (n l 102857532052042612 l) 102860839344632692 (n l 102860843488406369 l)) 102860912376048481 (n (n l 102860937910381409 l) 102864211028175969 (n l 102865310322025836 l))) 103126925469446767 (n (n (n l 103126947062183009 l) 103126951139701871 (n l 103126951206548852 l)) 103126955535000931 (n (n l 103126955585268084 l) 103126963890839924 (n l 103126972782375535 l)))))) 103126976774300020 (n (n (n (n (n (n l 103126976842591855 l) 103126976959506804 (n l 103126976993129844 l)) 103126985599117684 (n (n l 103126989659203956 l) 103126989726769524 (n l 103126989843820655 l))) 103126994189576555 (n (n (n l 103127002611869035 l) 103131349303588453 (n l 103131375056154474 l)) 103131387908420460 (n (n l 103142382957258092 l) 103142383040820084 (n l 103148984405554036 l)))) 103409487124523380 (n (n (n (n l 103409504136094068 l) 103409504437761121 (n l 103409559854015843 l)) 103409564333205601 (n (n l 103409577167317364 l) 103409577435556965 (n l 103410616699547233 l))) 103411694586980724 (n (n (n l 103411703058948468 l) 103411703343767924 (n l 103411715926156133 l)) 103411716161038708 (n (n l 103411724650968420 l) 103411750471169396 (n l 103411750689005940 l))))) 103411758877272929 (n (n (n (n (n l 103411776291103092 l) 103416139877673839 (n l 103416157158664564 l)) 103416157326435691 (n (n l 103419399841080165 l) 103419468593589876 (n l 103421598830523489 l))) 103424897465803621 (n (n (n l 103424914545931124 l) 103424940550218597 (n l 103424953016542325 l)) 103427083454407020 (n (n l 103428225848338804 l) 103428226016504180 (n l 103428242960835939 l)))) 103428260425197665 (n (n (n (n l 103428268965390708 l) 103429295479482740 (n l 103429351247147892 l)) 103431477289514356 (n (n l 103689871027433076 l) 103689875424109416 (n l 103689892603782507 l))) 103689909548508257 (n (n (n l 103689913927230836 l) 103689914028352875 (n l 103689918205553505 l)) 103689918373847412 (n (n l 103689918440830575 l) 103689927013264225 (n l 103689935485498465 l)))))))
def tCzech1011 : T := (n (n (n (n (n (n (n l 103689944193527393 l) 103689969895565428 (n l 103694273234825063 l)) 103694307830296430 (n (n l 103694316184826977 l) 103694316235548011 (n l 103694341955019873 l))) 103694350762471009 (n (n (n l 103698705859703668 l) 103698705976945505 (n l 103698714650309729 l)) 103698735706695020 (n (n l 103698736025136229 l) 103698740068904545 (n l 103698748808979301 l)))) 103698748826607986 (n (n (n (n l 103701957149291617 l) 103701974312382063 (n l 103701974430086767 l)) 103702017111322209 (n (n l 103705259762149748 l) 103705268468868452 (n l 103705268486302068 l))) 103705268519199076 (n (n (n l 103705268603286113 l) 103705285531429729 (n l 103705285766836082 l)) 103705285816708449 (n (n l 103705294322759028 l) 103705298417117556 (n l 103705302777753189 l))))) 103705302844728683 (n (n (n (n (n l 103705303113953133 l) 103705311536376673 (n l 103705319890510196 l)) 103705320025711979 (n (n l 103705320074863464 l) 103705328480445285 (n l 103705328815925345 l))) 103705332775414132 (n (n (n l 103705333027794037 l) 103705333093987937 (n l 103705333110957419 l)) 103705337254998891 (n (n l 103705337305851243 l) 103705337355400801 (n l 103705337423426145 l)))) 103705341784781423 (n (n (n (n l 103705345794534497 l) 103705345963352436 (n l 103705362891432310 l)) 103705362907882859 (n (n l 103708554119049849 l) 103708554236814691 (n l 103708588578662768 l))) 103708614214382437 (n (n (n l 103708614281489268 l) 103708614332083301 (n l 103708614467020139 l)) 103710753058748015 (n (n l 103711856898765921 l) 103711895486621027 (n l 103711895670320737 l)))))) 103711929980054369 (n (n (n (n (n (n l 103711930164276833 l) 103711934376206708 (n l 104252825275556709 l)) 104252825359967077 (n (n l 104252889802108513 l) 104252919631471461 (n l 104252919765036143 l))) 104257253437173089 (n (n (n l 104257317745358433 l) 104268235720256353 (n l 104268270079995748 l)) 104268270179412065 (n (n l 104268287259469156 l) 104268287360001121 (n l 104268295832167269 l)))) 104268312827424612 (n (n (n (n l 104268312928480097 l) 104268312944671332 (n l 104268312978876513 l)) 104268313079931752 (n (n l 104274807069698913 l) 104274845674531187 (n l 104279205066076022 l))) 104279264960212079 (n (n (n l 104534300253451361 l) 104534343203187553 (n l 104534364543413089 l)) 104534368905357684 (n (n l 104536516557431156 l) 104538698164759663 (n l 104538724136613236 l))))) 104538728565728353 (n (n (n (n (n l 104538728582572645 l) 104538762589268340 (n l 104538762707432033 l)) 104538762992705908 (n (n l 104538767103063412 l) 104538767170625908 (n l 104542057048012148 l))) 104543130789438309 (n (n (n l 104543156576740715 l) 104543165266092901 (n l 104545282569168238 l)) 104545299782199659 (n (n l 104545329594262113 l) 104545355499074657 (n l 104545368500956769 l)))) 104546381878356833 (n (n (n (n l 104546382079684193 l) 104546399460879969 (n l 104546442327123307 l)) 104547481657894756 (n (n l 104547498871320161 l) 104547528853517921 (n l 104549693517097825 l))) 104549766413443443 (n (n (n l 104549766497722731 l) 104550840256851826 (n l 104550840373834849 l)) 104550866110146932 (n (n l 104553039413535092 l) 104555178172703589 (n l 104555178273368929 l)))))))
def tCzech101 : T := n tCzech1010 103689935552538981 tCzech1011
def tCzech10 : T := n tCzech100 102308957539165539 tCzech101
def tCzech1100 : T := (n (n (n (n (n (n (n l 104555238420144500 l) 104556281911929716 (n l 104557437124568161 l)) 104560718463265633 (n (n l 104560731583047011 l) 104560740105417588 (n l 104815800932462191 l))) 104815801083589492 (n (n (n l 104815805478824801 l) 104815869585286508 (n l 104820207568449390 l)) 104820212015002721 (n (n l 104820216226346081 l) 104820224866350177 (n l 104820233271798117 l)))) 104824640243524971 (n (n (n (n l 104826757377189219 l) 104826757544767073 (n l 104827874320277876 l)) 104831155557463137 (n (n l 104831219932228449 l) 104834453958386533 (n l 104834454076551026 l))) 104834484157378145 (n (n (n l 104834514188591973 l) 104834518467503468 (n l 104834518500733812 l)) 104837782726210932 (n (n l 104837825592259681 l) 104838925019738996 (n l 105098396946101108 l))))) 105105006782605684 (n (n (n (n (n l 105107150022271348 l) 105107167454194036 (n l 105108279783221620 l)) 105108292752533876 (n (n l 105108305552763252 l) 105113790327316852 (n l 105113802876807540 l))) 105117080221935988 (n (n (n l 105117088861153652 l) 105118175488469364 (n l 105118188256064884 l)) 105120387245697396 (n (n l 105124742375763553 l) 105378768132795233 (n l 105378785295167097 l)))) 105378785413980532 (n (n (n (n l 105383157522788968 l) 105383157589894508 (n l 105383157741216353 l)) 105383183225087073 (n (n l 105383187587033953 l) 105383187688094309 (n l 105383187737830245 l))) 105383187771778165 (n (n (n l 105383200472329057 l) 105387512836481893 (n l 105387615765949281 l)) 105390837024650100 (n (n l 105390862862019425 l) 105390867257254260 (n l 105394118514210415 l)))))) 105394212834667631 (n (n (n (n (n (n l 105394212936511073 l) 105405104738691444 (n l 105405122153310580 l)) 105405130726143348 (n (n l 105405130742196596 l) 105405130842728820 (n l 105405139299300724 l))) 105405143627751796 (n (n (n l 105405147754750324 l) 105405151983591796 (n l 105405152050702708 l)) 105405152117810548 (n (n l 105405156411793780 l) 105405156613712244 (n l 105405164867051892 l)))) 105405173458430324 (n (n (n (n l 105405178155393396 l) 105405182047906164 (n l 105405182115012980 l)) 105405190872260980 (n (n l 105405190922331500 l) 105406204584683892 (n l 105406217437082992 l))) 105406247601922420 (n (n (n l 105406264614679137 l) 105968097875619694 (n l 106504624956140911 l)) 106504625291749748 (n (n l 106504642320689524 l) 106504642369972596 (n l 106504642420106337 l))))) 106504650726073699 (n (n (n (n (n l 106504659382856052 l) 106504663678478708 (n l 106504663845855604 l)) 106504668039569780 (n (n l 106504676730104180 l) 106504685086206324 (n l 106504693675092340 l))) 106504702265158004 (n (n (n l 106504702332265844 l) 106504702399506804 (n l 106504702500036980 l)) 106504702550892916 (n (n l 106507910789819233 l) 106509117542067297 (n l 106513459921380197 l)))) 106514525056821620 (n (n (n (n l 106515654431826292 l) 106515667652272500 (n l 106515680202091361 l)) 106516767248382315 (n (n l 106517866373605748 l) 106517866390643060 (n l 106518905906754420 l))) 106520086838667636 (n (n (n l 106520091216145509 l) 106521152224258420 (n l 106521178094725985 l)) 106523312357928047 (n (n l 106525575806740852 l) 106527719296429153 (n l 25464025647042093925 l)))))))
def tCzech1101 : T := (n (n (n (n (n (n (n l 25467404454747665505 l) 25467422051413680500 (n l 25468541332540515173 l)) 25468816262305246836 (n (n l 25468823915903148901 l) 25468828352554889069 (n l 25469100975687560033 l))) 25535809509829798245 (n (n (n l 25535812769877418356 l) 25535825955376425825 (n l 25538894688084457844 l)) 25538894739625304936 (n (n l 25538910094133453172 l) 25539746779615949684 (n l 25539757834894926693 l)))) 25540583520531278689 (n (n (n (n l 25540583559202304609 l) 25540605553780484961 (n l 25540605575322037089 l)) 25541429088157589876 (n (n l 25541437828465914740 l) 25609001800035232115 (n l 25609826416340528239 l))) 25609830758670950772 (n (n (n l 25609847277349729140 l) 25610114424247776353 (n l 25610127699774434913 l)) 25613767044758467956 (n (n l 25614622469016220769 l) 25681041750347901793 (n l 25681052775461577076 l))))) 25681060429093431670 (n (n (n (n (n l 25682176476194169210 l) 25682176497887371636 (n l 25683031866393782643 l)) 25683856500215540084 (n (n l 25683865352007937652 l) 25683867499508100724 (n l 25683867512511818100 l))) 25683870836715843428 (n (n (n l 25683870849667721588 l) 25683874143605646699 (n l 25683875204680349044 l)) 25684698747261708651 (n (n l 25684714093397635956 l) 25684714114721671525 (n l 25685545349975273071 l)))) 25754801414154840421 (n (n (n (n l 25755071881214586734 l) 25758461649524188005 (n l 25824043184449808741 l)) 25824047552430041445 (n (n l 25825158025099436901 l) 25826287292260642420 (n l 25897226614287723361 l))) 25898350358120984161 (n (n (n l 25900039169142649953 l) 25900871529609457518 (n l 25900886952670096225 l)) 25970415670131845483 (n (n l 25971240235133463393 l) 25971240299457309561 (n l 25971255628061369699 l)))))) 25971255701327016820 (n (n (n (n (n (n l 25971262220953154657 l) 25972099001008350053 (n l 25972103373420195444 l)) 25972103386020341091 (n (n l 25972103399072296816 l) 25972105598146147188 (n l 25973774613713220468 l))) 25974919269591443819 (n (n (n l 26043880621705225061 l) 26043881674190513524 (n l 26043883855932908641 l)) 26043883873230942066 (n (n l 26113388439621887340 l) 26114531949112025957 (n l 26115641339182211444 l)))) 26184328874212029537 (n (n (n (n l 26184330016707078518 l) 26184333272241761889 (n l 26184333306736110689 l)) 26184333375152681569 (n (n l 26184344301885944692 l) 26185165645544188278 (n l 26185446025404245358 l))) 26185461371188636513 (n (n (n l 26187417479701034356 l) 26187434998889868897 (n l 26187435101901517684 l)) 26188270709313729633 (n (n l 26188271830149789281 l) 26188273994981337953 (n l 26188276138102779762 l))))) 26188276172427914351 (n (n (n (n (n l 26188276181136336246 l) 26188279483781115489 (n l 26189101901467246964 l)) 26189101931531626867 (n (n l 26189123874283875439 l) 26189949624696859489 (n l 26189962831771301493 l))) 26190227831337675617 (n (n (n l 26191091987397570145 l) 26256375545946468210 (n l 26257514627141758820 l)) 26257514648717519713 (n (n l 26257521224346400104 l) 26257523397749728101 (n l 26258628402558036833 l)))) 26258629549246870388 (n (n (n (n l 26258633930297667169 l) 26258640527199401325 (n l 26258646046283424100 l)) 26260326018395501665 (n (n l 26260328226059870580 l) 26261461848434897780 (n l 26262023746053301093 l))) 26328441923478058081 (n (n (n l 26328443023056790373 l) 26328451819049939828 (n l 26328452944364139617 l)) 26329560096453847403 (n (n l 26329561200578356069 l) 26329561226382241377 (n l 26329572242856110945 l)))))))
def tCzech110 : T := n tCzech1100 25467135117616046949 tCzech1101
def tCzech1110 : T := (n (n (n (n (n (n (n l 26330695896461046898 l) 26330698069749165665 (n l 26330698147007787892 l)) 26331535949265727073 (n (n l 26332375963047060065 l) 26332384729108933729 (n l 26332385828670827361 l))) 26332386911068579937 (n (n (n l 26332386988412532077 l) 26332386992623870324 (n l 26332393542565061477 l)) 26332394620535665524 (n (n l 26333217132324480355 l) 26333244616071934836 (n l 26334088989310545524 l)))) 26335207205488715107 (n (n (n (n l 26400490721473880436 l) 26400491790987977076 (n l 26400492864729802091 l)) 26400497318257847397 (n (n l 26400497331092089204 l) 26400499474331758453 (n l 26400500604092705140 l))) 26400502803217148276 (n (n (n l 26400503915478348914 l) 26400506114602722660 (n l 26400506127420978287 l)) 26400508356306955375 (n (n l 26400512758665671289 l) 26401618760122592111 (n l 26401627590408237940 l))))) 26401628690087637876 (n (n (n (n (n l 26401630863273981025 l) 26401635313078002020 (n l 26401643039791213669 l)) 26402752438098616683 (n (n l 26404437908104242021 l) 26404443439887377253 (n l 26472833067414156660 l))) 26472836327243997793 (n (n (n l 26472837474066981733 l) 26472838526418184564 (n l 26472839673107474804 l)) 26472844053739497844 (n (n l 26472848503325483380 l) 26472855108985316716 (n l 26473117849313634676 l)))) 26473118983403828596 (n (n (n (n l 26473396069124563316 l) 26473402636046461300 (n l 26473407021090567028 l)) 26473408159341111668 (n (n l 26473411432138697076 l) 26473414743222871412 (n l 26475377384783374708 l))) 26475647817197645409 (n (n (n l 26475652283981259124 l) 26475936949933272673 (n l 26475937010348876148 l)) 26476769323370570100 (n (n l 26476778153823330676 l) 26477334459294381170 (n l 26477615934421824884 l)))))) 26478470259385723252 (n (n (n (n (n (n l 26544606978661180780 l) 26544619125062659173 (n l 26544624575493796961 l)) 26544624622453418849 (n (n l 26544632297828803947 l) 26545749375838809968 (n l 26545750522578563956 l))) 26545751613449725290 (n (n (n l 26546856605355570273 l) 26546866445343089509 (n l 26547700982973625441 l)) 26547701051944430433 (n (n l 26547701064644455535 l) 26548547680009086307 (n l 26548548706438637940 l)))) 26548548715213447540 (n (n (n (n l 26548548749321202036 l) 26548548775408923745 (n l 26548553151998618465 l)) 26548555329513483105 (n (n l 26548557537042462068 l) 26548558627964155252 (n l 26548558696767317364 l))) 26548559710110900596 (n (n (n l 26548559779082498932 l) 26548561965170780532 (n l 26548565237700650339 l)) 26548565250920442228 (n (n l 26548568596414817128 l) 26548572942872372587 (n l 26549389833002180980 l))))) 26549389867444956001 (n (n (n (n (n l 26549389888836494699 l) 26549405221969488244 (n l 26549405225996678255 l)) 26549405264819087732 (n (n l 26549405273308225908 l) 26549409658336340833 (n l 26549411827462140788 l))) 26549412974168076921 (n (n (n l 26551378840912487521 l) 26688730993246432865 (n l 26688733196447998824 l)) 26688740888683049844 (n (n l 26689845863560667508 l) 26689849136258510706 (n l 26689851352578092660 l)))) 26689862416447136613 (n (n (n (n l 26689868987614258546 l) 26690991571856679284 (n l 26692661747282176865 l)) 26692663946154698094 (n (n l 26692673781679617135 l) 26692680460320468577 (n l 26692681529717650546 l))) 26692682581917199201 (n (n (n l 26692688092712558964 l) 26692688105412256613 (n l 26694351666270202991 l)) 26694360432651101029 (n (n l 26695477566362317684 l) 26760790760604590452 (n l 26760796236403338081 l)))))))
def tCzech1111 : T := (n (n (n (n (n (n (n l 26761904604119460705 l) 26761906764688748148 (n l 26763592302928487538 l)) 26763592328832838511 (n (n l 26763604393479201637 l) 26763873769448828015 (n l 26763873846842848116 l))) 26763878167597179252 (n (n (n l 26763882660115342181 l) 26764164075047122543 (n l 26764740236301923937 l)) 26764740261921908084 (n (n l 26764999703817252449 l) 26764999733781226860 (n l 26765015088221807971 l)))) 26765015122732610420 (n (n (n (n l 26766125629493703777 l) 26766144278224663924 (n l 26766147611118887781 l)) 26766408212622045305 (n (n l 26766425757445092449 l) 26766425783399968353 (n l 26766688553744496239 l))) 26766703912378723439 (n (n (n l 26767551683307205492 l) 26832836272548244321 (n l 26832849428200972660 l)) 26832858232866303585 (n (n l 26833963254937119585 l) 26833972106965380705 (n l 26833975332234486629 l))))) 26833979769103805281 (n (n (n (n (n l 26835106759932143987 l) 26837620290590243425 (n l 26837627897261944417 l)) 26837642199268354420 (n (n l 26837642220810101605 l) 26838492130430905199 (n l 26905192946902197611 l))) 26905200664857964129 (n (n (n l 26905476595148878708 l) 26907707576904082796 (n l 26907719598567483764 l)) 26908296897955654767 (n (n l 26908560712262643041 l) 26908560733720507764 (n l 26909114857516135796 l)))) 26909126939359734132 (n (n (n (n l 26909127042338354548 l) 26909963680492778868 (n l 26909968112916259188 l)) 26909973563044686196 (n (n l 26909980233296737652 l) 26910240774620078452 (n l 26910256201974310243 l))) 26910259496482990452 (n (n (n l 26910819195045702497 l) 26911932965730019700 (n l 26978082828274721637 l)) 26978088312814663012 (n (n l 26978097121892855393 l) 26979205429563257441 (n l 26979223004519167073 l)))))) 26980631487555461492 (n (n (n (n (n (n l 26980894296721290100 l) 26980894322558132587 (n l 26980900876477229945 l)) 26980910797868657505 (n (n l 26981737617727186283 l) 26982037814567266676 (n l 26983707942564815220 l))) 26983713457133871476 (n (n (n l 26983713482836568436 l) 26983715609148025204 (n l 26983716755837315444 l)) 26983719010761991540 (n (n l 26983720024105574772 l) 26983722253160835444 (n l 26983722278930770292 l)))) 26983722292117530996 (n (n (n (n l 26983724465420919156 l) 26983725551930730868 (n l 26983725586055588212 l)) 26983725590568203636 (n (n l 26983726676977150324 l) 26983728837563479412 (n l 26983733214151076212 l))) 26983989417541134708 (n (n (n l 26983990589865353588 l) 26983994932110583149 (n l 27265181892593083764 l)) 27265182919275471220 (n (n l 27265186247975068020 l) 27265188489830823284 (n l 27265190620218812788 l))))) 27265191732380197236 (n (n (n (n (n l 27265191745533536628 l) 27265193987472647540 (n l 27265195000816230772 l)) 27265197229871491444 (n (n l 27265200562766244212 l) 27265200567278859636 (n l 27265201598054164852 l))) 27265201623840814452 (n (n (n l 27265202719040697716 l) 27265208268171929972 (n l 27265484168281612660 l)) 27266025196704723828 (n (n l 27266051554700192879 l) 27266318701884436065 (n l 27267163191239472500 l)))) 27267163195333110625 (n (n (n (n l 27267166489791588724 l) 27268017481491835745 (n l 27268558454332481908 l)) 27268577188928646753 (n (n l 27268580461744906612 l) 27268839916255994228 (n l 27269122512152848756 l))) 27269418259304966516 (n (n (n l 27269421566732298612 l) 27269980092885857140 (n l 27269992161542433140 l)) 27269993252699206516 (n (n l 27270811349479419489 l) 27271096075612550516 (n l 27271113697880600420 l)))))))
def tCzech111 : T := n tCzech1110 26760805036874883941 tCzech1111
def tCzech11 : T := n tCzech110 26330694835637743470 tCzech111
def tCzech1 : T := n tCzech10 104555238134869089 tCzech11
def tCzech : T := n tCzech0 409436773445486 tCzech1

def tEnglish0000 : T := (n (n (n (n (n (n (n (n l 23159668 l) 23159908 l) 23160677 (n l 23161197 l)) 23161202 (n (n l 23161964 l) 23162489 (n l 23163501 l))) 23163508 (n (n (n l 23163755 l) 23224679 (n l 23224690 l)) 23226724 (n (n l 23228280 l) 23228281 (n l 23229811 l)))) 23290222 (n (n (n (n l 23290226 l) 23290228 (n l 23294585 l)) 23295344 (n (n l 23355748 l) 23355769 (n l 23359335 l))) 23360121 (n (n (n l 23422823 l) 23424612 (n l 23425633 l)) 23427429 (n (n l 23486830 l) 23486836 (n l 23487845 l))))) 23487863 (n (n (n (n (n l 23488884 l) 23488888 (n l 23489657 l)) 23490407 (n (n l 23490424 l) 23491950 (n l 23552368 l))) 23552371 (n (n (n l 23557486 l) 23558509 (n l 23617908 l)) 23618926 (n (n l 23619952 l) 23623010 (n l 23683941 l)))) 23686252 (n (n (n (n l 23748978 l) 23752546 (n l 23752569 l)) 23815545 (n (n l 23816548 l) 23816564 (n l 23880034 l))) 23880055 (n (n (n l 23881063 l) 23945572 (n l 23945582 l)) 23947640 (n (n l 23949165 l) 24012148 (n l 24014711 l)))))) 24016244 (n (n (n (n (n (n l 24076651 l) 24077926 (n l 24078700 l)) 24079460 (n (n l 24079973 l) 24082286 (n l 24143214 l))) 24143220 (n (n (n l 24144231 l) 24147316 (n l 24273271 l)) 24275298 (n (n l 24278375 l) 24278382 (n l 24338788 l)))) 24338809 (n (n (n (n l 24339809 l) 24340601 (n l 24340856 l)) 24341353 (n (n l 24342649 l) 24343918 (n l 24404327 l))) 24405358 (n (n (n l 24406384 l) 24407909 (n l 24407920 l)) 24407929 (n (n l 24408697 l) 24409967 (n l 24474469 l))))) 24535406 (n (n (n (n (n l 24600953 l) 24601954 (n l 24601972 l)) 24602990 (n (n l 24735605 l) 24801135 (n l 5928807525 l))) 5928872292 (n (n (n l 5929464687 l) 5929853800 (n l 5929854305 l)) 5929856377 (n (n l 5929987949 l) 5930053236 (n l 5930054767 l)))) 5930180985 (n (n (n (n l 5930248563 l) 5945516665 (n l 5945519212 l)) 5945520997 (n (n l 5945778542 l) 5945779558 (n l 5945781364 l))) 5945783156 (n (n (n l 5946043237 l) 5946044004 (n l 5946045028 l)) 5946242405 (n (n l 5946242418 l) 5946433908 (n l 5946434681 l)))))))
def tEnglish0001 : T := (n (n (n (n (n (n (n l 5946436962 l) 5946437221 (n l 5946437483 l)) 5946438515 (n (n l 5946829922 l) 5946829931 (n l 5946831737 l))) 5946833530 (n (n (n l 5962295141 l) 5962296165 (n l 5962296428 l)) 5962296429 (n (n l 5962296688 l) 5962297956 (n l 5962297972 l)))) 5962298213 (n (n (n (n l 5962298216 l) 5962298981 (n l 5962752372 l)) 5962753382 (n (n l 5962822777 l) 5963014512 (n l 5963014519 l))) 5963014521 (n (n (n l 5963016560 l) 5963018087 (n l 5963019618 l)) 5963211877 (n (n l 5963213164 l) 5963213166 (n l 5963214181 l))))) 5963214699 (n (n (n (n (n l 5963214700 l) 5963214969 (n l 5963215461 l)) 5963215470 (n (n l 5963215732 l) 5963407725 (n l 5963408759 l))) 5963411312 (n (n (n l 5963604581 l) 5963609189 (n l 5979073904 l)) 5979075432 (n (n l 5979076462 l) 5979332972 (n l 5979334002 l)))) 5979334265 (n (n (n (n l 5979336313 l) 5979337579 (n l 5979595116 l)) 5979595621 (n (n l 5979596148 l) 5979599476 (n l 5979599720 l))) 5979991148 (n (n (n l 5979991922 l) 5979992933 (n l 5979993701 l)) 5980184951 (n (n l 5980186992 l) 5980188528 (n l 5980190061 l)))))) 5980382059 (n (n (n (n (n (n l 5980384610 l) 5980384869 (n l 5980386164 l)) 5980386425 (n (n l 5995852398 l) 5995852660 (n l 5995852665 l))) 5995980911 (n (n (n l 5996046181 l) 5996046708 (n l 5996573541 l)) 5997226348 (n (n l 5997357428 l) 6012625765 (n l 6012626021 l)))) 6012628076 (n (n (n (n l 6012628325 l) 6012629613 (n l 6012888420 l)) 6012888428 (n (n l 6013152357 l) 6013152365 (n l 6013152868 l))) 6013152869 (n (n (n l 6013153893 l) 6013153901 (n l 6013154152 l)) 6013346151 (n (n l 6013346164 l) 6013347173 (n l 6013348208 l))))) 6013542765 (n (n (n (n (n l 6013544812 l) 6013545572 (n l 6013546340 l)) 6013546356 (n (n l 6013547115 l) 6013742951 (n l 6013937004 l))) 6013940345 (n (n (n l 6029404526 l) 6029405541 (n l 6029407088 l)) 6029407333 (n (n l 6029408869 l) 6029928052 (n l 6029931116 l)))) 6029932133 (n (n (n (n l 6030123364 l) 6030126967 (n l 6030128485 l)) 6030319988 (n (n l 6030322788 l) 6030323556 (n l 6030325614 l))) 6030516578 (n (n (n l 6030518628 l) 6030518644 (n l 6030520183 l)) 6046181746 (n (n l 6046182502 l) 6046183012 (n l 6046184036 l)))))))
def tEnglish000 : T := n tEnglish0000 5946435948 tEnglish0001
def tEnglish0010 : T := (n (n (n (n (n (n (n l 6046185323 l) 6046441828 (n l 6046444656 l)) 6046446191 (n (n l 6046705512 l) 6046706796 (n l 6046707316 l))) 6046708325 (n (n (n l 6047100004 l) 6047100005 (n l 6047100261 l)) 6047100772 (n (n l 6047101029 l) 6047101550 (n l 6047101812 l)))) 6047102322 (n (n (n (n l 6047491941 l) 6047493748 (n l 6047494772 l)) 6063091566 (n (n l 6063154529 l) 6063156325 (n l 6063809384 l))) 6063813743 (n (n (n l 6064074606 l) 6064203117 (n l 6079740538 l)) 6080653678 (n (n l 6080654181 l) 6081047920 (n l 6081048171 l))))) 6081049460 (n (n (n (n (n l 6096774510 l) 6096774512 (n l 6097036139 l)) 6097038948 (n (n l 6097040243 l) 6097040485 (n l 6097041257 l))) 6097364325 (n (n (n l 6097366903 l) 6113289337 (n l 6113291109 l)) 6113291632 (n (n l 6113293921 l) 6113294190 (n l 6113294969 l)))) 6113550694 (n (n (n (n l 6113551988 l) 6113554020 (n l 6113554035 l)) 6113812850 (n (n l 6113814117 l) 6113814132 (n l 6113815397 l))) 6113815906 (n (n (n l 6113816171 l) 6113816430 (n l 6113817460 l)) 6113818213 (n (n l 6114206052 l) 6114206062 (n l 6114206571 l)))))) 6114209383 (n (n (n (n (n (n l 6114209648 l) 6114211172 (n l 6114211429 l)) 6130067812 (n (n l 6130067820 l) 6130067822 (n l 6130068325 l))) 6130070379 (n (n (n l 6130070387 l) 6130070632 (n l 6130072165 l)) 6130327918 (n (n l 6130327924 l) 6130330740 (n l 6130331253 l)))) 6130332520 (n (n (n (n l 6130592875 l) 6130593380 (n l 6130594675 l)) 6130986862 (n (n l 6130987621 l) 6130988645 (n l 6131377000 l))) 6131379301 (n (n (n l 6131381108 l) 6131643496 (n l 6146846053 l)) 6147105138 (n (n l 6147105643 l) 6147106148 (n l 6147109748 l))))) 6147110771 (n (n (n (n (n l 6147111028 l) 6147367781 (n l 6147765093 l)) 6147765349 (n (n l 6163686777 l) 6163820402 (n l 6164275577 l))) 6164408692 (n (n (n l 6164472677 l) 6164475001 (n l 6164604270 l)) 6164996460 (n (n l 6164997486 l) 6164997490 (n l 6180397940 l)))) 6180398949 (n (n (n (n l 6180399474 l) 6180400237 (n l 6180401771 l)) 6180402035 (n (n l 6180402280 l) 6180402789 (n l 6180659570 l))) 6180924524 (n (n (n l 6180925035 l) 6180925541 (n l 6181118329 l)) 6181123431 (n (n l 6181315949 l) 6181315956 (n l 6181317733 l)))))))
def tEnglish0011 : T := (n (n (n (n (n (n (n l 6181318265 l) 6181318508 (n l 6181319540 l)) 6181710956 (n (n l 6181710960 l) 6181712744 (n l 6198487412 l))) 6198487418 (n (n (n l 6213952357 l) 6213952363 (n l 6213953900 l)) 6213953902 (n (n l 6213954928 l) 6213956197 (n l 6213956709 l)))) 6214213996 (n (n (n (n l 6214216825 l) 6214217332 (n l 6214476645 l)) 6214476648 (n (n l 6214476901 l) 6214479463 (n l 6214479732 l))) 6214480747 (n (n (n l 6214869348 l) 6214872934 (n l 6214872941 l)) 6214873957 (n (n l 6215263333 l) 6215265381 (n l 6230730341 l))))) 6230731116 (n (n (n (n (n l 6230731892 l) 6230732133 (n l 6230732388 l)) 6230734437 (n (n l 6230860142 l) 6230991220 (n l 6230992228 l))) 6230992235 (n (n (n l 6230994028 l) 6231188836 (n l 6231189872 l)) 6231191397 (n (n l 6231191408 l) 6231253867 (n l 6231254117 l)))) 6231254894 (n (n (n (n l 6231256171 l) 6231256679 (n l 6231259749 l)) 6231386478 (n (n l 6231449954 l) 6231449965 (n l 6231452013 l))) 6231453556 (n (n (n l 6231453559 l) 6231581040 (n l 6231584631 l)) 6231646576 (n (n l 6231647083 l) 6231647329 (n l 6231647860 l)))))) 6231649895 (n (n (n (n (n (n l 6231650158 l) 6231650932 (n l 6231651692 l)) 6231651696 (n (n l 6231714158 l) 6231715700 (n l 6231974265 l))) 6231975277 (n (n (n l 6231975280 l) 6232040296 (n l 6232041844 l)) 6232044133 (n (n l 6232170864 l) 6232172909 (n l 6247508332 l)))) 6247509099 (n (n (n (n l 6247509611 l) 6247510117 (n l 6247510891 l)) 6247512169 (n (n l 6247768429 l) 6247771244 (n l 6247771764 l))) 6247772781 (n (n (n l 6247773044 l) 6247774324 (n l 6247965044 l)) 6247966062 (n (n l 6247966073 l) 6247967091 (n l 6248031333 l))))) 6248033396 (n (n (n (n (n l 6248033637 l) 6248033913 (n l 6248427109 l)) 6248427372 (n (n l 6248428403 l) 6248429422 (n l 6248620400 l))) 6248620409 (n (n (n l 6248621413 l) 6248622445 (n l 6248622448 l)) 6248625509 (n (n l 6248817253 l) 6248820321 (n l 6248821358 l)))) 6248950126 (n (n (n (n l 6249082981 l) 6264679545 (n l 6265136239 l)) 6265137524 (n (n l 6265270126 l) 6265399141 (n l 6265464164 l))) 6281065332 (n (n (n l 6281327202 l) 6281327225 (n l 6281586039 l)) 6281589601 (n (n l 6281980260 l) 6281983077 (n l 6297839461 l)))))))
def tEnglish001 : T := n tEnglish0010 6181318244 tEnglish0011
def tEnglish00 : T := n tEnglish000 6046185061 tEnglish001
def tEnglish0100 : T := (n (n (n (n (n (n (n l 6297840747 l) 6297840748 (n l 6297841268 l)) 6297842285 (n (n l 6297842536 l) 6297842544 (n l 6297843301 l))) 6298100082 (n (n (n l 6298104692 l) 6298296692 (n l 6298297710 l)) 6298298736 (n (n l 6298362981 l) 6298363493 (n l 6298365028 l)))) 6298365036 (n (n (n (n l 6298365541 l) 6298365543 (n l 6298365547 l)) 6298366565 (n (n l 6298366821 l) 6298366824 (n l 6298758246 l))) 6298759012 (n (n (n l 6298759020 l) 6298759780 (n l 6298759787 l)) 6298952048 (n (n l 6331396708 l) 6331654514 (n l 6348436079 l))))) 6349090405 (n (n (n (n (n l 1517774927220 l) 1517774927461 (n l 1517775319909 l)) 1517792030578 (n (n l 1517807562868 l) 1517808347508 (n l 1517808872564 l))) 1517857892718 (n (n (n l 1517858156148 l) 1517859005797 (n l 1517874930020 l)) 1517892627557 (n (n l 1517941781101 l) 1517941847405 (n l 1517942043252 l)))) 1517942302062 (n (n (n (n l 1517942498681 l) 1517942501239 (n l 1517942697573 l)) 1517942761569 (n (n l 1517943022962 l) 1517959474791 (n l 1517975725426 l))) 1517975727205 (n (n (n l 1517975728761 l) 1517975989349 (n l 1518008889972 l)) 1518009871461 (n (n l 1518010001772 l) 1518042705505 (n l 1518042838373 l)))))) 1518043227492 (n (n (n (n (n (n l 1518043230066 l) 1518043557751 (n l 1518060397940 l)) 1518092970356 (n (n l 1518110468452 l) 1518126328677 (n l 1518126330469 l))) 1518126658924 (n (n (n l 1522052329326 l) 1522052392805 (n l 1522053376355 l)) 1522119304040 (n (n l 1522119698798 l) 1522120028023 (n l 1522120156008 l)))) 1522187531368 (n (n (n (n l 1522236744555 l) 1522236744805 (n l 1522236747109 l)) 1522236748660 (n (n l 1522237006187 l) 1522237010803 (n l 1522237271652 l))) 1522237665124 (n (n (n l 1522238059368 l) 1522287080036 (n l 1522287932787 l)) 1522287997812 (n (n l 1522337409390 l) 1522337410660 (n l 1522337411955 l))))) 1522337412709 (n (n (n (n (n l 1522337669476 l) 1522337932139 (n l 1522337932646 l)) 1522337934951 (n (n l 1522337936235 l) 1522338328429 (n l 1522338330478 l))) 1522338722664 (n (n (n l 1522387936377 l) 1522388266084 (n l 1522388857716 l)) 1522389312882 (n (n l 1526347229550 l) 1526347230309 (n l 1526348013932 l)))) 1526348014713 (n (n (n (n l 1526348017509 l) 1526348277615 (n l 1526348280441 l)) 1526348407656 (n (n l 1526348477285 l) 1526464604530 (n l 1526464605291 l))) 1526464606067 (n (n (n l 1526464607077 l) 1526464864624 (n l 1526464865131 l)) 1526464869236 (n (n l 1526465127782 l) 1526465129572 (n l 1526465916523 l)))))))
def tEnglish0101 : T := (n (n (n (n (n (n (n l 1526481772914 l) 1526482757996 (n l 1526531713389 l)) 1526531973486 (n (n l 1526531977835 l) 1526532236139 (n l 1526532236902 l))) 1526532238690 (n (n (n l 1526532629355 l) 1526532633445 (n l 1526532633704 l)) 1526532633956 (n (n l 1526532634478 l) 1526533025136 (n l 1526582043496 l)))) 1526582047604 (n (n (n (n l 1526582767474 l) 1526582831459 (n l 1526583157100 l)) 1526583354216 (n (n l 1526583420274 l) 1526632375147 (n l 1526632375924 l))) 1526632377957 (n (n (n l 1526632379240 l) 1526632380268 (n l 1526632381049 l)) 1526632636781 (n (n l 1526632637803 l) 1526632901989 (n l 1526632903536 l))))) 1526633296755 (n (n (n (n (n l 1526633297764 l) 1526633686380 (n l 1526633689960 l)) 1526683825765 (n (n l 1526749949029 l) 1530642981733 (n l 1530709959033 l))) 1530710226024 (n (n (n l 1530776351353 l) 1530777991801 (n l 1530877865842 l)) 1530927343220 (n (n l 1530927344993 l) 1530927604077 (n l 1530927608691 l)))) 1530927867508 (n (n (n (n l 1530927869036 l) 1530927869547 (n l 1530927871589 l)) 1530978919272 (n (n l 1531011232358 l) 1534937490802 (n l 1534937492581 l))) 1534938213497 (n (n (n l 1534938215528 l) 1535071709300 (n l 1535121715063 l)) 1535121843570 (n (n l 1535122175077 l) 1535139411065 (n l 1535155200884 l)))))) 1535155465593 (n (n (n (n (n (n l 1535155793785 l) 1535156446578 (n l 1535156449913 l)) 1535206842732 (n (n l 1535206844784 l) 1535222313829 (n l 1535223227493 l))) 1535223426930 (n (n (n l 1535223623796 l) 1535240266105 (n l 1535290338149 l)) 1535322973044 (n (n l 1535323499621 l) 1535323501428 (n l 1535324222049 l)))) 1539232591476 (n (n (n (n l 1539232593000 l) 1539232789349 (n l 1539232916345 l)) 1539233309036 (n (n l 1539233377396 l) 1539300025189 (n l 1539300418408 l))) 1539300550002 (n (n (n l 1539366348146 l) 1539366546532 (n l 1539367133548 l)) 1539367400308 (n (n l 1539416616293 l) 1539416617832 (n l 1539417530740 l))))) 1539417531243 (n (n (n (n (n l 1539417534322 l) 1539417925988 (n l 1539417928552 l)) 1539467081075 (n (n l 1539468059493 l) 1539468064109 (n l 1539468258916 l))) 1539517279589 (n (n (n l 1539517543272 l) 1539518197364 (n l 1539518198644 l)) 1539518199662 (n (n l 1539518589300 l) 1539568463481 (n l 1543528343397 l)))) 1543594996325 (n (n (n (n l 1543645393780 l) 1543661252212 (n l 1543711584869 l)) 1543711585139 (n (n l 1543712105573 l) 1543712498277 (n l 1543712501613 l))) 1543712502393 (n (n (n l 1543712503397 l) 1543762834277 (n l 1543812244325 l)) 1543812245870 (n (n l 1543812247156 l) 1543812247653 (n l 1543812248435 l)))))))
def tEnglish010 : T := n tEnglish0100 1526465917550 tEnglish0101
def tEnglish0110 : T := (n (n (n (n (n (n (n l 1543812506990 l) 1543812769126 (n l 1543813166448 l)) 1543813557876 (n (n l 1543862579812 l) 1543862842227 (n l 1543863100517 l))) 1543863102580 (n (n (n l 1547822066036 l) 1547822985337 (n l 1547823117160 l)) 1547889111668 (n (n l 1547889112697 l) 1547889831023 (n l 1548056945273 l)))) 1548057732473 (n (n (n (n l 1548057998181 l) 1548058125676 (n l 1548058256754 l)) 1548158329198 (n (n l 1548158332786 l) 1548158661241 (n l 1552318293861 l))) 1552335267192 (n (n (n l 1552335922546 l) 1552336057716 (n l 1552420140389 l)) 1552470209145 (n (n l 1556479045235 l) 1556479765625 (n l 1556480484716 l))))) 1556747675493 (n (n (n (n (n l 1556748002149 l) 1560925529701 (n l 1560925922155 l)) 1565001934188 (n (n l 1565001936754 l) 1565002983269 (n l 1565003113842 l))) 1565003114862 (n (n (n l 1565003179880 l) 1565003441522 (n l 1565068980846 l)) 1565068981861 (n (n l 1565069369708 l) 1565069766510 (n l 1565070353772 l)))) 1565136480372 (n (n (n (n l 1565136873844 l) 1565236879724 (n l 1565237143907 l)) 1565238321516 (n (n l 1565337545593 l) 1565338263922 (n l 1565338264424 l))) 1569297230179 (n (n (n l 1569297428338 l) 1569297688431 (n l 1569297820773 l)) 1569297949544 (n (n l 1569298080616 l) 1569364140396 (n l 1569364142433 l)))))) 1569365058425 (n (n (n (n (n (n l 1569365059429 l) 1569365059956 (n l 1569365062265 l)) 1569365188972 (n (n l 1569431841123 l) 1569431908210 (n l 1569432560996 l))) 1569531913580 (n (n (n l 1569532572776 l) 1569532830060 (n l 1569532964722 l)) 1569533031269 (n (n l 1569533094245 l) 1569633560931 (n l 1573592331877 l)))) 1573592986745 (n (n (n (n l 1573660030565 l) 1573660288370 (n l 1573726414964 l)) 1573826751589 (n (n l 1573827212133 l) 1573827802216 (n l 1573828060524 l))) 1573928465253 (n (n (n l 1577920460146 l) 1577920586094 (n l 1577970984306 l)) 1577971901806 (n (n l 1578071848549 l) 1578105401198 (n l 1578138694241 l))))) 1578172049780 (n (n (n (n (n l 1578172179826 l) 1578172375406 (n l 1578205996402 l)) 1578223560050 (n (n l 1578256721266 l) 1578307120741 (n l 1582182589537 l))) 1582182589804 (n (n (n l 1582182590819 l) 1582182720882 (n l 1582182855801 l)) 1582182982504 (n (n l 1582183052133 l) 1582248846181 (n l 1582300098149 l)))) 1582300099695 (n (n (n (n l 1582315957871 l) 1582316217189 (n l 1582316679028 l)) 1582317200232 (n (n l 1582317599329 l) 1582366286693 (n l 1582366291045 l))) 1582367597419 (n (n (n l 1582417145460 l) 1582417338738 (n l 1582418060658 l)) 1582467474277 (n (n l 1582467474533 l) 1582467477108 (n l 1582467480165 l)))))))
def tEnglish0111 : T := (n (n (n (n (n (n (n l 1582467872100 l) 1582518006629 (n l 1582518133608 l)) 1582518266220 (n (n l 1582518268025 l) 1582518399845 (n l 1586812773227 l))) 1586813170789 (n (n (n l 1590771868018 l) 1590771870063 (n l 1590772200293 l)) 1590772395129 (n (n l 1590772523880 l) 1590772524901 (n l 1590772656484 l)))) 1590773048686 (n (n (n (n l 1590773313394 l) 1590838781049 (n l 1590838846828 l)) 1590839501176 (n (n l 1590839633271 l) 1590906087269 (n l 1590906219621 l))) 1590906284148 (n (n (n l 1590906284388 l) 1590907265388 (n l 1590907266418 l)) 1591006557044 (n (n l 1591006621556 l) 1591007864680 (n l 1591007866468 l))))) 1591007868005 (n (n (n (n (n l 1591008125292 l) 1591108329836 (n l 1595067359588 l)) 1595067363182 (n (n l 1595067949925 l) 1595100195941 (n l 1595100197477 l))) 1595100458597 (n (n (n l 1595101115764 l) 1595101307248 (n l 1595101312354 l)) 1595134604133 (n (n l 1595134997872 l) 1595135124846 (n l 1595184080500 l)))) 1595184083557 (n (n (n (n l 1595184344172 l) 1595184604788 (n l 1595184606821 l)) 1595184997227 (n (n l 1595185000308 l) 1595185001076 (n l 1595185002085 l))) 1595185198439 (n (n (n l 1595201120101 l) 1595201251444 (n l 1595201580153 l)) 1595201708901 (n (n l 1595201971566 l) 1595234415717 (n l 1595234937964 l)))))) 1595234939508 (n (n (n (n (n (n l 1595235724396 l) 1595251451248 (n l 1595251712869 l)) 1595251713125 (n (n l 1595252503400 l) 1595267968108 (n l 1595267969652 l))) 1595268492389 (n (n (n l 1595268885349 l) 1595284743019 (n l 1595284745061 l)) 1595285268070 (n (n l 1595302240626 l) 1595302242660 (n l 1595302245989 l)))) 1595302638201 (n (n (n (n l 1595302833764 l) 1595302835304 (n l 1595318297445 l)) 1595318301285 (n (n l 1595318302574 l) 1595318559083 (n l 1595318560100 l))) 1595318561900 (n (n (n l 1595318562404 l) 1595318821733 (n l 1595318823781 l)) 1595319019892 (n (n l 1595319216492 l) 1595319218030 (n l 1595319218804 l))))) 1595319411065 (n (n (n (n (n l 1595385407078 l) 1595385407333 (n l 1595385408880 l)) 1595385409124 (n (n l 1595385410164 l) 1595385410661 (n l 1595385667947 l))) 1595385668972 (n (n (n l 1595385930603 l) 1595385932908 (n l 1595385933415 l)) 1595386323819 (n (n l 1595386326629 l) 1595386326892 (n l 1595386327673 l)))) 1595386328677 (n (n (n (n l 1595386717798 l) 1595386981477 (n l 1595402576242 l)) 1595403038329 (n (n l 1595403167090 l) 1595403298661 (n l 1595435740528 l))) 1595435741805 (n (n (n l 1595435999602 l) 1595436000628 (n l 1595436263028 l)) 1595436265063 (n (n l 1595436659300 l) 1595470411120 (n l 1599361674341 l)))))))
def tEnglish011 : T := n tEnglish0110 1582467870566 tEnglish0111
def tEnglish01 : T := n tEnglish010 1543812505972 tEnglish011
def tEnglish0 : T := n tEnglish00 6297839988 tEnglish01
def tEnglish1000 : T := (n (n (n (n (n (n (n l 1599428715368 l) 1599479049835 (n l 1599479311717 l)) 1599479312997 (n (n l 1599479574119 l) 1599480161637 (n l 1599480164215 l))) 1599480360290 (n (n (n l 1599496217970 l) 1599496938852 (n l 1599497071717 l)) 1599596491636 (n (n l 1599596683641 l) 1599597143406 (n l 1599597409384 l)))) 1599597472099 (n (n (n (n l 1599597601640 l) 1599597732204 (n l 1599597929842 l)) 1599646819179 (n (n l 1599646819429 l) 1599646820718 (n l 1599646823272 l))) 1599647080820 (n (n (n l 1599647084132 l) 1599647342956 (n l 1599647343205 l)) 1599647343467 (n (n l 1599648129899 l) 1599648132217 (n l 1599648134004 l))))) 1599648134248 (n (n (n (n (n l 1599731229541 l) 1599731233652 (n l 1603874810981 l)) 1603874874738 (n (n l 1603875924332 l) 1603909215602 (n l 1603909412212 l))) 1603941851502 (n (n (n l 1603958564709 l) 1603959873900 (n l 1607951938917 l)) 1607952263524 (n (n l 1607952266853 l) 1607952527218 (n l 1607952854132 l)))) 1608019506533 (n (n (n (n l 1608085955951 l) 1608086877555 (n l 1608086940020 l)) 1608087003500 (n (n l 1608087136612 l) 1608186552684 (n l 1608186946405 l))) 1612246904686 (n (n (n l 1612247692389 l) 1612247754098 (n l 1612314145380 l)) 1612363951205 (n (n l 1612364210548 l) 1612364211564 (n l 1612364214885 l)))))) 1612380927080 (n (n (n (n (n (n l 1612482175342 l) 1612482505828 (n l 1612482507385 l)) 1612482507880 (n (n l 1612531983211 l) 1612532249460 (n l 1612532249701 l))) 1612532641383 (n (n (n l 1621072637543 l) 1621072639080 (n l 1625198588513 l)) 388550447427188 (n (n l 388550448083554 l) 388550448476772 (n l 388554473960307 l)))) 388554475008869 (n (n (n (n l 388554726273907 l) 388554759434094 (n l 388554760216940 l)) 388558785962868 (n (n l 388558887416692 l) 388559087952741 (n l 388567408929138 l))) 388567409848932 (n (n (n l 388567610255716 l) 388593297093492 (n l 388593463949683 l)) 388597626007156 (n (n l 388597726537060 l) 388601718796146 (n l 388601819783532 l))))) 388601904193900 (n (n (n (n (n l 388601988212082 l) 388610526634354 (n l 388618899450211 l)) 388619100843620 (n (n l 388619150127988 l) 388619150390885 (n l 388619183944564 l))) 388623411536756 (n (n (n l 388623462134644 l) 388623462919525 (n l 388623478844769 l)) 388627773350763 (n (n l 388627773615716 l) 388631851529076 (n l 388632068779890 l)))) 388632069631342 (n (n (n (n l 389645563228015 l) 389645579939425 (n l 389645580789106 l)) 389645647309945 (n (n l 389645648160108 l) 389645664478580 (n l 389645681847397 l))) 389662543017081 (n (n (n l 389662576176485 l) 389662626509413 (n l 389662659147365 l)) 389662659669604 (n (n l 389662861582713 l) 389662861714802 (n l 389662945275492 l)))))))
def tEnglish1001 : T := (n (n (n (n (n (n (n l 389692842668901 l) 389705776784754 (n l 389705777114727 l)) 389705777704823 (n (n l 389705811390317 l) 389705827771237 (n l 389718443653733 l))) 389718510692197 (n (n (n l 389718510889076 l) 389718611813742 (n l 389718612015717 l)) 389731278023781 (n (n l 389731311904116 l) 389731446449524 (n l 389731479481445 l)))) 389731479938418 (n (n (n (n l 389731546588526 l) 389731546785138 (n l 389731581191538 l)) 390744908264819 (n (n l 390745075053153 l) 390745091695980 (n l 390745092419438 l))) 390745092940147 (n (n (n l 390745093140334 l) 390745158741870 (n l 390745159656820 l)) 390745175977583 (n (n l 390745176697957 l) 390745176760684 (n l 390745193475173 l))))) 390745209399412 (n (n (n (n (n l 390762238145145 l) 390762254921332 (n l 390762272617843 l)) 390762338804076 (n (n l 390774939084645 l) 390774939346789 (n l 390775005606757 l))) 390775006458489 (n (n (n l 390775173636965 l) 390775174034277 (n l 390779518544997 l)) 390792186586482 (n (n l 390792252583540 l) 390792253172067 (n l 390792454890344 l)))) 390805087216997 (n (n (n (n l 390805188865390 l) 390805205118830 (n l 390805255644530 l)) 390805323018094 (n (n l 390805339532389 l) 390805339665253 (n l 390805339728238 l))) 390805406577765 (n (n (n l 390817888103525 l) 390817889150322 (n l 390817955211636 l)) 390818023369059 (n (n l 390818124096360 l) 390818223977317 (n l 390818224300904 l)))))) 390831076044653 (n (n (n (n (n (n l 391844586415973 l) 391844603585906 (n l 391844670828135 l)) 391861581739109 (n (n l 391861582850419 l) 391861598512229 (n l 391861599036517 l))) 391861649370725 (n (n (n l 391861666735461 l) 391861766286948 (n l 391861766812517 l)) 391861783585132 (n (n l 391861816619636 l) 391861816880740 (n l 391861817930873 l)))) 391861850699365 (n (n (n (n l 391861867213428 l) 391861867472750 (n l 391861883726188 l)) 391861883986804 (n (n l 391861917803365 l) 391861918200933 (n l 391878813115756 l))) 391878829041010 (n (n (n l 391878963783026 l) 391879030301556 (n l 391879097414260 l)) 391879097672805 (n (n l 391904549433202 l) 391904715958638 (n l 391904732738661 l))))) 391904733390201 (n (n (n (n (n l 391904850242661 l) 391917399928686 (n l 391930570174055 l)) 392944199232633 (n (n l 392965456360052 l) 392978575680882 (n l 392995453104747 l))) 392995454018681 (n (n (n l 392995504547685 l) 392995688705913 (n l 392999731358821 l)) 392999799515001 (n (n l 392999831955301 l) 392999832481381 (n l 392999916368756 l)))) 392999967483752 (n (n (n (n l 393000017027944 l) 393000017423468 (n l 393000034595429 l)) 393000050586213 (n (n l 393021239685221 l) 393021524898917 (n l 393025619059571 l))) 393034326636133 (n (n (n l 393042714784627 l) 393042715047013 (n l 393042715833189 l)) 393042917091683 (n (n l 393042932624996 l) 393042932884340 (n l 393042933150309 l)))))))
def tEnglish100 : T := n tEnglish1000 389680041583986 tEnglish1001
def tEnglish1010 : T := (n (n (n (n (n (n (n l 393042999996004 l) 394043426236771 (n l 394043610197113 l)) 394043610592627 (n (n l 394043727570290 l) 394060789541989 (n l 394077870060133 l))) 394077953877362 (n (n (n l 394077986579826 l) 394077986714472 (n l 394078070202732 l)) 394090654363506 (n (n l 394090787596404 l) 394090889307506 (n l 394103723159415 l)))) 394103823364980 (n (n (n (n l 394103823492468 l) 394103841057132 (n l 394103841121650 l)) 394116557270628 (n (n l 394116557858661 l) 394116659307886 (n l 394129627771493 l))) 395142970697076 (n (n (n l 395143104526457 l) 395143205185381 (n l 395143205381486 l)) 395143205906787 (n (n l 395143239198066 l) 395160318473587 (n l 395160319192165 l))))) 395177380768869 (n (n (n (n (n l 395177498207602 l) 395190165463909 (n l 395203352487276 l)) 395203352684912 (n (n l 395203402101358 l) 395228954780018 (n l 396242633713010 l))) 396242716880754 (n (n (n l 396242851033700 l) 396259612193896 (n l 396259746080884 l)) 396259796804980 (n (n l 396276841866606 l) 396302595351929 (n l 396302746414967 l)))) 396302847471474 (n (n (n (n l 396328532339813 l) 396328549446265 (n l 396328616356965 l)) 396345528707428 (n (n l 397367932056165 l) 397393685474917 (n l 397393734493044 l))) 397393735414629 (n (n (n l 397397812276581 l) 397397829054322 (n l 397397861690996 l)) 397397862609517 (n (n l 397397895244901 l) 397397929059188 (n l 397397930111609 l)))))) 397397979133029 (n (n (n (n (n (n l 397398079794789 l) 397398080054132 (n l 397398080316517 l)) 397398096569204 (n (n l 397398130389876 l) 397398130652261 (n l 397419437190756 l))) 398441489065332 (n (n (n l 398441556828530 l) 398527572700261 (n l 398527572832114 l)) 399575377405305 (n (n l 399575646233966 l) 400640528639346 (n l 400640731017072 l)))) 400657658176882 (n (n (n (n l 400657758908004 l) 400657876481128 (n l 400657961152366 l)) 400657977992562 (n (n l 400675107596644 l) 400675157863525 (n l 400675257283172 l))) 400700826020985 (n (n (n l 400700944050021 l) 400726578849138 (n l 400726764647033 l)) 400743843062643 (n (n l 401740091254132 l) 401740191850860 (n l 401740207843173 l))))) 401740209152364 (n (n (n (n (n l 401740275018853 l) 401740275345774 (n l 401740275478117 l)) 401740275606900 (n (n l 401740292973938 l) 401740309621112 (n l 401740309751154 l))) 401757169807223 (n (n (n l 401757355074681 l) 401757371000178 (n l 401757371855481 l)) 401757488836452 (n (n l 401774400007269 l) 401774568895589 (n l 401774635806578 l)))) 401774651732601 (n (n (n (n l 401800136584293 l) 401800170137209 (n l 401800320872052 l)) 401800338040185 (n (n l 401800438506866 l) 401800438574958 (n l 401825973299566 l))) 401826191207525 (n (n (n l 401826191340909 l) 401826209161580 (n l 401843371207782 l)) 402839753681262 (n (n l 402839787695991 l) 402839820660590 (n l 402839821447781 l)))))))
def tEnglish1011 : T := (n (n (n (n (n (n (n l 402899865988197 l) 402899916906860 (n l 402899950199653 l)) 402925602104690 (n (n l 403943459218292 l) 403943493035877 (n l 403943626729838 l))) 403960572240741 (n (n (n l 403995032645221 l) 404003690083173 (n l 404003756797806 l)) 404012028290917 (n (n l 404012161920628 l) 404012279554414 (n l 404025232094580 l)))) 404038200288622 (n (n (n (n l 404042395444594 l) 405038575152229 (n l 405038709171045 l)) 405038809834597 (n (n l 405038810099316 l) 405038810951540 (n l 405038844505964 l))) 405055705347444 (n (n (n l 405055922727276 l) 405055940357221 (n l 405055957132658 l)) 405055990491508 (n (n l 405055990886254 l) 405068874609509 (n l 405072918767971 l))))) 405072985288558 (n (n (n (n (n l 405073187598188 l) 405085770114420 (n l 405085836374885 l)) 405085836568421 (n (n l 405086105659237 l) 405098839237477 (n l 405098972935279 l))) 405099023459698 (n (n (n l 405111539594085 l) 405111606502770 (n l 405111607424121 l)) 405111674466158 (n (n l 405111774275956 l) 405124441467235 (n l 405124709708921 l)))) 405124845038693 (n (n (n (n l 407237564721524 l) 407237766180717 (n l 407237867103602 l)) 407254728929134 (n (n l 407254761303148 l) 407254761828453 (n l 407254762222180 l))) 407254779388773 (n (n (n l 407254812553837 l) 407254812947301 (n l 407254828937070 l)) 407254829524340 (n (n l 407254879003508 l) 407254912820582 (n l 407254929074542 l)))))) 407254929600100 (n (n (n (n (n (n l 407254929995365 l) 407254946047346 (n l 407254963610990 l)) 407254979406194 (n (n l 407254979666292 l) 407254980326004 (n l 407255029871973 l))) 407255030264692 (n (n (n l 407255031049332 l) 407255047041637 (n l 407255047828078 l)) 407255080329580 (n (n l 407255080592759 l) 407255096848996 (n l 407268016547949 l)))) 407271924461422 (n (n (n (n l 407272160259173 l) 407272227692908 (n l 407297695511412 l)) 407297711629684 (n (n l 407297912957285 l) 407297996190821 (n l 407323464066418 l))) 407323666768249 (n (n (n l 408337110035557 l) 408337244843886 (n l 408337245369445 l)) 408337261816933 (n (n l 408345767144805 l) 408345767800684 (n l 408345934914926 l))))) 408345935179892 (n (n (n (n (n l 408354240488296 l) 408354240556910 (n l 408354273848932 l)) 408354274043252 (n (n l 408354424185716 l) 408354458005362 (n l 408354525111667 l))) 408354559388773 (n (n (n l 408367124475767 l) 408367258758244 (n l 408367259870578 l)) 408367410015600 (n (n l 408371604057716 l) 408371605169522 (n l 408371621555301 l)))) 408371722478962 (n (n (n (n l 408380077532008 l) 408384438757492 (n l 408384539418990 l)) 408388834915432 (n (n l 408397222733170 l) 408397223125356 (n l 408397525705573 l))) 408401601720933 (n (n (n l 408401618429298 l) 408401619347828 (n l 408401769488740 l)) 408401769754215 (n (n l 408406114529893 l) 408418663951461 (n l 408418664411763 l)))))))
def tEnglish101 : T := n tEnglish1010 402856933352823 tEnglish1011
def tEnglish10 : T := n tEnglish100 393042933543781 tEnglish101
def tEnglish1100 : T := (n (n (n (n (n (n (n l 408418949358964 l) 408418949622629 (n l 408418950016615 l)) 408422976416116 (n (n l 408422977069433 l) 408423009379694 (n l 408423043065202 l))) 408423160964466 (n (n (n l 408423178134900 l) 408423211494521 (n l 408423245440377 l)) 408431684248424 (n (n l 408440340115308 l) 408440441955693 (n l 409436605344869 l)))) 409436755947124 (n (n (n (n l 409436856739188 l) 409436891148143 (n l 409453969108596 l)) 409453969959283 (n (n l 409466703934073 l) 409466921645669 (n l 409470965081460 l))) 409471132263794 (n (n (n l 409471234045285 l) 409496835614068 (n l 409496902005871 l)) 409496919176549 (n (n l 409496953318501 l) 409497069777508 (n l 409509585971555 l))))) 409509586953580 (n (n (n (n (n l 409509821442169 l) 409522671873125 (n l 409522689434988 l)) 409522756347257 (n (n l 409522756938853 l) 409531128247909 (n l 409531128378489 l))) 410591917403237 (n (n (n l 410592001223026 l) 410592002141284 (n l 410592052606309 l)) 410592102802283 (n (n l 410592269920620 l) 410600557605989 (n l 410600625630308 l)))) 410613459613036 (n (n (n (n l 411635627945588 l) 411635629258093 (n l 411635779659129 l)) 411635813020520 (n (n l 411652960183668 l) 411652992561010 (n l 411653059995257 l))) 411653077427564 (n (n (n l 411669954194533 l) 411670189730158 (n l 411670257426796 l)) 411695909793125 (n (n l 411696126584677 l) 412735291422068 (n l 412752286610536 l)))))) 412752286871406 (n (n (n (n (n (n l 412752287065452 l) 412769684057975 (n l 412769684710770 l)) 412769685103986 (n (n l 412769767944045 l) 412795453859186 (n l 414951494414199 l))) 99468837382287214 (n (n (n l 99468871708800121 l) 99469945501740660 (n l 99469966874867301 l)) 99470005731160677 (n (n l 99470018565469043 l) 99471049357620083 (n l 99471126382404453 l)))) 99472208948259171 (n (n (n (n l 99476607012401780 l) 99479841105538924 (n l 99479905361814649 l)) 99480932110923122 (n (n l 99480932211846759 l) 99482031489643380 (n l 99482040027934324 l))) 99482091752285554 (n (n (n l 99482112975859297 l) 99482113043166565 (n l 99482130222249081 l)) 99484290641782649 (n (n l 99484295037417061 l) 99486502365325157 (n l 99486511324426859 l))))) 99487606172380276 (n (n (n (n (n l 99488658622870629 l) 99488710262874996 (n l 99489736794140526 l)) 99490844861622117 (n (n l 99490887559636079 l) 99491944390946149 (n l 99491970226942564 l))) 99749259874558821 (n (n (n l 99749259908181625 l) 99749285744175470 (n l 99753619266827109 l)) 99753658054702693 (n (n l 99753666577590644 l) 99753692649317742 (n l 99758017714809957 l)))) 99758069037098873 (n (n (n (n l 99761307475731828 l) 99761367689686893 (n l 99767904360949108 l)) 99767964775507314 (n (n l 99771224420346991 l) 100030691917522789 (n l 100030752030354533 l))) 100030752165749100 (n (n (n l 100030752349055342 l) 100030769210879847 (n l 100030773824417646 l)) 100035120197103207 (n (n l 100035141806944889 l) 100035158985501038 (n l 100038384440075634 l)))))))
def tEnglish1101 : T := (n (n (n (n (n (n (n l 100038418749089145 l) 100038457437350243 (n l 100038470120729701 l)) 100039565439034734 (n (n l 100042782519420537 l) 100042868436264306 (n l 100046089594238324 l))) 100046128198017908 (n (n (n l 100046132325477989 l) 100046132392981108 (n l 100046132559834745 l)) 100046136636961396 (n (n l 100046136654783348 l) 100046136687555181 (n l 100046136821506932 l)))) 100046136923025260 (n (n (n (n l 100046154068484980 l) 100046166887264889 (n l 100049413697398132 l)) 100049465236873580 (n (n l 100049465404189797 l) 100049482685899116 (n l 100052725403054693 l))) 100052750987916659 (n (n (n l 100052751138254452 l) 100052751171545454 (n l 100052755265711982 l)) 100316569404010085 (n (n l 100316582171800421 l) 100316608009233778 (n l 100316616782869364 l))))) 100316625289570676 (n (n (n (n (n l 100316638190070130 l) 100316638258294649 (n l 100316650891145072 l)) 100320958777287021 (n (n l 100320958877757028 l) 100320984580776300 (n l 100320984663946361 l))) 100321005988048225 (n (n (n l 100321036052034405 l) 100321036186776435 (n l 100321036237300089 l)) 100321049105818469 (n (n l 100327603242035566 l) 100330854583396707 (n l 100338606696917347 l)))) 100595896897464185 (n (n (n (n l 100595896931020153 l) 100597022026986597 (n l 100605749467639412 l)) 100605749568564852 (n (n l 100606836278911845 l) 100606892147568494 (n l 100606896359564658 l))) 100607944280077171 (n (n (n l 100607944331260773 l) 100607952921191269 (n l 100607961275982693 l)) 100610164896261221 (n (n l 100612389688930158 l) 100613506145870693 (n l 100614545746059628 l)))))) 100618926528949349 (n (n (n (n (n (n l 100618935102432357 l) 100618943541376101 (n l 100618956392723316 l)) 100618956525693300 (n (n l 100618990935697774 l) 100618991036625779 (n l 100620043036028791 l))) 100875121462113401 (n (n (n l 100875168689255289 l) 100875189963288430 (n l 100875194274903397 l)) 100879510902501989 (n (n l 100879523535544684 l) 100883917538160494 (n l 100883990451680115 l)))) 100890579033222757 (n (n (n (n l 100890579082244708 l) 100893804334771301 (n l 100897176001012581 l)) 101156634942075513 (n (n l 101156660543842149 l) 101156660728655476 (n l 101161041461928300 l))) 101161041729777253 (n (n (n l 101161063188623973 l) 101165456620414565 (n l 101168716702577509 l)) 101171993610908531 (n (n l 101172053824793697 l) 101175279563142265 (n l 101175339373654649 l))))) 101438114332173682 (n (n (n (n (n l 101438135856362356 l) 101446936211452537 (n l 101453503031173497 l)) 101460108607907172 (n (n l 101460130048077412 l) 101731679406088556 (n l 101731679556957043 l))) 101732766284084325 (n (n (n l 101732783213146981 l) 101732796316218981 (n l 101732796366353253 l)) 101733839892997221 (n (n l 101733852777112436 l) 101733861250197876 (n l 101733865796231532 l)))) 101733900172751481 (n (n (n (n l 101733908678799973 l) 101733908745383020 (n l 101733921547122277 l)) 101739388989437029 (n (n l 102005410674734451 l) 102016491790951801 (n l 102286967104370032 l))) 102291339447922541 (n (n (n l 102291365150877038 l) 102564048513823353 (n l 102564057188755828 l)) 102568369352700517 (n (n l 102568395105727077 l) 102568420823888484 (n l 102572762852390009 l)))))))
def tEnglish110 : T := n tEnglish1100 100038418581120366 tEnglish1101
def tEnglish1110 : T := (n (n (n (n (n (n (n l 102572767147094885 l) 102579360157164914 (n l 102579437482373753 l)) 102585978499196773 (n (n l 102845446080786021 l) 102845493257794661 (n l 102845493509975918 l))) 102845536292140397 (n (n (n l 102849835722699365 l) 102849891573264238 (n l 102849913030797157 l)) 102854280895623022 (n (n l 102854289435489645 l) 102854306480483429 (n l 102854311094086501 l)))) 102854332570235493 (n (n (n (n l 102860886505713522 l) 102860886673483122 (n l 102860903768747623 l)) 102871903280394873 (n (n l 103131336350720884 l) 103131345075070322 (n l 103131392370504299 l))) 103131396615332204 (n (n (n l 103142357187061093 l) 103142387116829797 (n l 103142387234729575 l)) 103148911356895602 (n (n l 103409564182213221 l) 103409564215572069 (n l 103409577167385971 l))))) 103410668188886386 (n (n (n (n (n l 103420585235736931 l) 103424914579091310 (n l 103427087731356260 l)) 103428260425720680 (n (n l 103430459214491506 l) 103430459465753701 (n l 103689918456817010 l))) 103689944041877108 (n (n (n l 103689944226427502 l) 103689965583822452 (n l 103694260651519604 l)) 103694307728515438 (n (n l 103694316184827001 l) 103694333448119156 (n l 103698667306054245 l)))) 103698718743946610 (n (n (n (n l 103701957234157923 l) 103705320226578802 (n l 103705328799543150 l)) 103705337389216377 (n (n l 103705345728345209 l) 103708571231413108 (n l 103708571432219237 l))) 103708571482812020 (n (n (n l 103708571533143668 l) 103708588561756793 (n l 103708588712752229 l)) 103708614147728749 (n (n l 103708614164050803 l) 103708614181872485 (n l 103708614232007021 l)))))) 103708614281487220 (n (n (n (n (n (n l 103708614332478565 l) 103708614433203570 (n l 103708614449259380 l)) 103708614483076197 (n (n l 103711865471331943 l) 103711904327493998 (n l 103711925802595173 l))) 103716323597314404 (n (n (n l 103993327697359993 l) 103993327731635565 (n l 103993327798740338 l)) 104252820880846702 (n (n l 104257214933986404 l) 104257218960520805 (n l 104257219295669349 l)))) 104257231962596212 (n (n (n (n l 104257236409016690 l) 104257257614701413 (n l 104257274912007013 l)) 104257279358497381 (n (n l 104257292192801140 l) 104257296420925294 (n l 104268256959685477 l))) 104534300336419699 (n (n (n l 104534368972924537 l) 104534369073588329 (n l 104534373434484581 l)) 104536486576416114 (n (n l 104536520684102501 l) 104538694188887918 (n l 104538711251054196 l))))) 104538736954335602 (n (n (n (n (n l 104538758646948709 l) 104538762891587438 (n l 104541983999815543 l)) 104542001280149094 (n (n l 104542069798104165 l) 104543087806213735 (n l 104543135000715634 l))) 104543165266097253 (n (n (n l 104546399259223410 l) 104549727691433330 (n l 104549732003573349 l)) 104550780226855276 (n (n l 104550797121511788 l) 104550840256393074 (n l 104551965385914981 l)))) 104555178004936045 (n (n (n (n l 104555238284944232 l) 104555263904018036 (n l 104555264054815845 l)) 104556281911927668 (n (n l 104556286089458547 l) 104556303336436596 (n l 104556342175690085 l))) 104556350564033381 (n (n (n l 104556355027034996 l) 104556355093883246 (n l 104558476674232183 l)) 104560727304728429 (n (n l 104823519256733812 l) 104823544908899698 (n l 104831159667745647 l)))))))
def tEnglish1111 : T := (n (n (n (n (n (n (n l 104831211341834356 l) 104831228605195375 (n l 104831241557734260 l)) 104834453991745891 (n (n l 104834488368326002 l) 104834514372684901 (n l 104834540009186676 l))) 104837787121446766 (n (n (n l 104842215047782764 l) 105111531206832741 (n l 105111539663922546 l)) 105111560903487609 (n (n l 105111565282275949 l) 105111574006429550 (n l 105111617040376172 l)))) 105113755916002405 (n (n (n (n l 105117045760553843 l) 105118162452313209 (n l 105378785312863603 l)) 105383140408912997 (n (n l 105383166364447333 l) 105383183526752110 (n l 105383191882391918 l))) 105387512836484724 (n (n (n l 105387516981376371 l) 105387517165924985 (n l 105387555685492581 l)) 105387564409644901 (n (n l 105387581590823276 l) 105394152604266095 (n l 105660260238324325 l))))) 105660260440174450 (n (n (n (n (n l 105664585505727858 l) 105664598122262119 (n l 105664602534407780 l)) 105664632465616229 (n (n l 105667918384096626 l) 105669065055761267 (n l 105678896320769125 l))) 25464042187078591348 (n (n (n l 25464306022390001268 l) 25464319268321782115 (n l 25467414367817327461 l)) 25468546821591753588 (n (n l 25469109788961236069 l) 25535800662196776818 (n l 25540598909432196201 l)))) 25541447758362538867 (n (n (n (n l 25607876935081226873 l) 25609826403707613038 (n l 25610122176379055982 l)) 25611810996459238259 (n (n l 25611811047847781746 l) 25611811060733338469 (n l 25613502023817327204 l))) 25679935637237818738 (n (n (n l 25681041737428133234 l) 25681041780461630565 (n l 25681041793128428389 l)) 25681059321108587109 (n (n l 25682179775013156210 l) 25682185212241536357 (n l 25682185220965950834 l)))))) 25682185272554710386 (n (n (n (n (n (n l 25682185293744989029 l) 25683856555914915444 (n l 25755071846854846819 l)) 25755071902486982260 (n (n l 25755071928140590962 l) 25755653496961462373 (n l 25757890998711509861 l))) 25758447368707925861 (n (n (n l 25758449610714084197 l) 25824051959352095845 (n l 25825155881961091705 l)) 25825174582048743788 (n (n l 25828818350898507380 l) 25969273221547585383 (n l 25972104502711705964 l)))) 26041050470436923001 (n (n (n (n l 26043863038108463973 l) 26043864098931831909 (n l 26043864150741119609 l)) 26043875119818174068 (n (n l 26043881674189927284 l) 26184331098804350831 (n l 26256388693176706917 l))) 26328450732304459621 (n (n (n l 26328452875644658028 l) 26329560096453847395 (n l 26330687121775880308 l)) 26332392477396923503 (n (n l 26332394663517972846 l) 26334073643359825017 (n l 26334081288552542061 l))))) 26401622058791958117 (n (n (n (n (n l 26477335563250791033 l) 26477341052135956844 (n l 26546601540131709292 l)) 26548565225134190446 (n (n l 26548565267898854501 l) 26549389833085215589 (n l 26549398680684295289 l))) 26549405281831515257 (n (n (n l 26550252949511172965 l) 26622296318819266414 (n l 26689859049075402098 l)) 26689865646145170533 (n (n l 26689865689230107493 l) 26689865693424153445 (n l 26761349355344458355 l)))) 26761355948068532078 (n (n (n (n l 26761905716800877689 l) 26761917806916035429 (n l 26762763335769548146 l)) 26764730362206187374 (n (n l 26765303156191683948 l) 26766144248259897209 (n l 26766144333941271653 l))) 26766425787627828069 (n (n (n l 26766425796168216164 l) 26836782389966431602 (n l 26836789029952974711 l)) 26836794548935029605 (n (n l 26837620256464594290 l) 26908271592075979873 (n l 26908560780814349157 l)))))))
def tEnglish111 : T := n tEnglish1110 104831168308602226 tEnglish1111
def tEnglish11 : T := n tEnglish110 102572763069379193 tEnglish111
def tEnglish1 : T := n tEnglish10 408418732107119 tEnglish11
def tEnglish : T := n tEnglish0 1599362790501 tEnglish1

def tFrench0000 : T := (n (n (n (n (n (n (n (n l 1517791240564 l) 1517791307122 l) 1517792029030 (n l 1517858417765 l)) 1517891642738 (n (n l 1517942175077 l) 1517958623845 (n l 1517959476594 l))) 1517975727205 (n (n (n l 1518060466789 l) 1518076915045 (n l 1518110073957 l)) 1518110076782 (n (n l 1518110665068 l) 1518143627628 (n l 1522052392805 l)))) 1522053310828 (n (n (n (n l 1522053312366 l) 1522187005813 (n l 1522187133294 l)) 1522187595630 (n (n l 1522237664868 l) 1522287604325 (n l 1522287932787 l))) 1522288193125 (n (n (n l 1522288325733 l) 1522337412709 (n l 1522338721125 l)) 1522388855150 (n (n l 1526347362917 l) 1526348013932 (n l 1526348017518 l))))) 1526465127790 (n (n (n (n (n l 1526465130356 l) 1526465524581 (n l 1526465918053 l)) 1526482494834 (n (n l 1526482757996 l) 1526582112865 (n l 1526582240626 l))) 1526583028069 (n (n (n l 1526583291758 l) 1526583354469 (n l 1526632374885 l)) 1526632899954 (n (n l 1526633686380 l) 1526749949029 (n l 1530776743525 l)))) 1530877406565 (n (n (n (n l 1530877536116 l) 1530878584174 (n l 1535155595630 l)) 1535155791221 (n (n l 1535322973044 l) 1539232132197 (n l 1539233309036 l))) 1539299962213 (n (n (n l 1539367006069 l) 1539367135602 (n l 1539367201893 l)) 1539367398757 (n (n l 1539367789938 l) 1539416880498 (n l 1539417535077 l)))))) 1539467667813 (n (n (n (n (n (n l 1539518196068 l) 1539518589300 (n l 1539568137317 l)) 1539568858482 (n (n l 1543528673134 l) 1543594995573 (n l 1543595257189 l))) 1543662629477 (n (n (n l 1543711581029 l) 1543712498277 (n l 1543762701669 l)) 1543763027813 (n (n l 1543812247140 l) 1543863100517 (n l 1547822724197 l)))) 1547890221669 (n (n (n (n l 1547956285301 l) 1547957593458 (n l 1548057994341 l)) 1548225441381 (n (n l 1552318293861 l) 1556412719717 (n l 1556413247077 l))) 1556480290670 (n (n (n l 1556480353385 l) 1556648386933 (n l 1556748463982 l)) 1560708473195 (n (n l 1565001934188 l) 1565002395237 (n l 1565002657893 l))))) 1565002852718 (n (n (n (n (n l 1565002984805 l) 1565136155237 (n l 1565136483685 l)) 1565136872818 (n (n l 1565238060402 l) 1565238063716 (n l 1565238064741 l))) 1565238321516 (n (n (n l 1565337479525 l) 1565337679218 (n l 1565338264681 l)) 1565338529646 (n (n l 1569297949801 l) 1569298151013 (n l 1569364796786 l)))) 1569365060709 (n (n (n (n l 1569431905125 l) 1569432564837 (n l 1569532963174 l)) 1569633625458 (n (n l 1573592789093 l) 1573659436901 (n l 1573660288373 l))) 1573726152805 (n (n (n l 1573826751589 l) 1573826816358 (n l 1573927348069 l)) 1573927875173 (n (n l 1573928400229 l) 1577937368434 (n l 1577987962469 l)))))))
def tFrench0001 : T := (n (n (n (n (n (n (n l 1578139673970 l) 1578173035877 (n l 1578173229413 l)) 1578223561068 (n (n l 1578274219109 l) 1578307120741 (n l 1582182589537 l))) 1582183310706 (n (n (n l 1582249569381 l) 1582249964645 (n l 1582250026354 l)) 1582250092916 (n (n l 1582315957871 l) 1582317462892 (n l 1582317599329 l)))) 1582367206754 (n (n (n (n l 1582367598949 l) 1582417470841 (n l 1582417929061 l)) 1582467869029 (n (n l 1582518005861 l) 1590773049710 (n l 1590906156402 l))) 1590907265388 (n (n (n l 1591007404901 l) 1591007801202 (n l 1591007864677 l)) 1591107281262 (n (n l 1591107283315 l) 1591107348581 (n l 1591108396402 l))))) 1595066708581 (n (n (n (n (n l 1595067363182 l) 1595101114981 (n l 1595201252453 l)) 1595201974128 (n (n l 1595234936178 l) 1595301653605 (n l 1595302372453 l))) 1595302701413 (n (n (n l 1595402318437 l) 1599361671523 (n l 1599362591091 l)) 1599362722150 (n (n l 1599362790245 l) 1599362920549 (n l 1599363114354 l)))) 1599429568882 (n (n (n (n l 1599429832293 l) 1599430227045 (n l 1599495891297 l)) 1599497007989 (n (n l 1599497073253 l) 1599597605733 (n l 1599597733229 l))) 1599646820718 (n (n (n l 1599647739491 l) 1599697677413 (n l 1599698723189 l)) 1599765373294 (n (n l 1603875204974 l) 1603958564709 (n l 1603959090789 l)))))) 1603959874924 (n (n (n (n (n (n l 1603959878245 l) 1603975867493 (n l 1607951938917 l)) 1607952266853 (n (n l 1607952725093 l) 1608019768437 (n l 1608020157810 l))) 1608086877555 (n (n (n l 1608087003500 l) 1608186948709 (n l 1608187667826 l)) 1612246904686 (n (n l 1620836575348 l) 1625199703141 (n l 388550380775794 l)))) 388550381626738 (n (n (n (n l 388550431699060 l) 388550448082037 (n l 388550481897830 l)) 388554440732533 (n (n l 388554508362341 l) 388554759173490 (n l 388554760217964 l))) 388558803203173 (n (n (n l 388558971102578 l) 388559021238644 (n l 388559071376485 l)) 388571620140402 (n (n l 388571755472242 l) 388571906534757 (n l 388580395017586 l))))) 388593163072613 (n (n (n (n (n l 388593346504545 l) 388597407115125 (n l 388597524229998 l)) 388597525143916 (n (n l 388601718859118 l) 388601819783532 (n l 388601904194924 l))) 388601919859054 (n (n (n l 388618915247474 l) 388618965577332 (n l 388619067290213 l)) 388623411536756 (n (n l 388623461610868 l) 388623479694181 (n l 388627740325229 l)))) 388627740713829 (n (n (n (n l 388631799882597 l) 388632035684965 (n l 388636045239666 l)) 388636112480626 (n (n l 388636112745317 l) 388636179916146 (n l 388636279926373 l))) 388636280710514 (n (n (n l 388644769590629 l) 389645462497125 (n l 389645546516334 l)) 389645563226478 (n (n l 389645648098661 l) 389645665003886 (n l 389645680861557 l)))))))
def tFrench000 : T := n tFrench0000 1578138430565 tFrench0001
def tFrench0010 : T := (n (n (n (n (n (n (n l 389662827308402 l) 389662843691877 (n l 389662878364261 l)) 389679773215845 (n (n l 389680041651557 l) 389692606870885 (n l 389705508156004 l))) 389705508679269 (n (n (n l 389705626772850 l) 389705676448869 (n l 389705709547374 l)) 389705709676914 (n (n l 389705827052645 l) 389705827186040 (n l 389705827314021 l)))) 389705827643246 (n (n (n (n l 389705828037477 l) 389705877517682 (n l 389718443452787 l)) 389718511547749 (n (n l 389718611354994 l) 389718713065836 (n l 389731345394789 l))) 389731546653045 (n (n (n l 389731580864882 l) 390744890764901 (n l 390744924053877 l)) 390745058796914 (n (n l 390745075314542 l) 390745126364530 (n l 390745159921518 l))))) 390745175975282 (n (n (n (n (n l 390745176503653 l) 390745210185074 (n l 390745226305906 l)) 390762338675813 (n (n l 390762339070821 l) 390762339394930 (n l 390762356499826 l))) 390774938760037 (n (n (n l 390774939083621 l) 390774939479918 (n l 390775006716268 l)) 390775224364389 (n (n l 390779333866085 l) 390779519464805 (n l 390779553083246 l)))) 390792119284581 (n (n (n (n l 390792252583540 l) 390792253104500 (n l 390792353114213 l)) 390805019782260 (n (n l 390805087220325 l) 390805104518514 (n l 390805204394356 l))) 390805254662510 (n (n (n l 390805288216940 l) 390805289203059 (n l 390805406577765 l)) 390817889480558 (n (n l 390818123313765 l) 390830908404325 (n l 390831024989285 l)))))) 391844586939762 (n (n (n (n (n (n l 391844603585906 l) 391861918198130 (n l 391878744894565 l)) 391878779626866 (n (n l 391878930687346 l) 391904548711525 (n l 391904733327214 l))) 391904733586802 (n (n (n l 391904801157733 l) 391904816621413 (n l 391904816887154 l)) 391904850242661 (n (n l 391904851420530 l) 391917399928686 (n l 391917400515954 l)))) 391930569779570 (n (n (n (n l 392965456360052 l) 392999949659497 (n l 393000050582898 l)) 393000152296805 (n (n l 393017196639602 l) 393021458704754 (n l 393021458901364 l))) 393021508642165 (n (n (n l 393021525421413 l) 393025619388773 (n l 393042715833189 l)) 393042815903090 (n (n l 393042950711667 l) 394043442424933 (n l 394043609937272 l))))) 394043694083685 (n (n (n (n (n l 394043744022382 l) 394043745134950 (n l 394043760932210 l)) 394043761586793 (n (n l 394060874212722 l) 394060925006437 (n l 394077769261935 l))) 394077802883430 (n (n (n l 394077870060133 l) 394077953418610 (n l 394090653773157 l)) 394090887999342 (n (n l 394090989053029 l) 394103823230322 (n l 394103873630821 l)))) 394103874547049 (n (n (n (n l 394116423316325 l) 394116490620782 (n l 394129593169266 l)) 394129594149222 (n (n l 394129610207086 l) 395143021487474 (n l 395143206037874 l))) 395160319191404 (n (n (n l 395160503674226 l) 395177297012082 (n l 395177313985906 l)) 395177564923493 (n (n l 395190165141093 l) 395190400021093 (n l 395203385782132 l)))))))
def tFrench0011 : T := (n (n (n (n (n (n (n l 395215934942821 l) 395215935793522 (n l 395216002376052 l)) 395216170546277 (n (n l 395216170610789 l) 395216270353778 (n l 396242633187701 l))) 396242650095986 (n (n (n l 396242717798254 l) 396242733593188 (n l 396302762472036 l)) 396302897869669 (n (n l 396328348446580 l) 396328532273518 (n l 396328532339813 l)))) 396328532796517 (n (n (n (n l 396328533194098 l) 396328616879474 (n l 397355231505509 l)) 397368048578149 (n (n l 397393618298226 l) 397393734493044 (n l 397397828658021 l))) 397397862215273 (n (n (n l 397397930111589 l) 397398096569204 (n l 397398097096037 l)) 397419488241010 (n (n l 397432372949605 l) 398441556828530 (n l 398441740265838 l))))) 398441790793074 (n (n (n (n (n l 398501920208242 l) 398501937242476 (n l 398501987317112 l)) 398527572832114 (n (n l 398527673234808 l) 399575528468079 (n l 400640495411564 l))) 400640580087397 (n (n (n l 400640830431855 l) 400640831351154 (n l 400657977995877 l)) 400658010826098 (n (n l 400674839032677 l) 400675039704165 (n l 400675056349044 l)))) 400675141084530 (n (n (n (n l 400675157141349 l) 400700743051634 (n l 400700944446053 l)) 400726411535461 (n (n l 400726697469298 l) 401740124353125 (n l 401740125071717 l))) 401740125138798 (n (n (n l 401740174812005 l) 401740209153388 (n l 401740275020389 l)) 401740276068206 (n (n l 401740292909414 l) 401757371003493 (n l 401757388171634 l)))))) 401757388959602 (n (n (n (n (n (n l 401757472911973 l) 401757505219685 (n l 401774417835109 l)) 401774450995054 (n (n l 401774451254642 l) 401774534550901 (n l 401774568895589 l))) 401800136584293 (n (n (n l 401800438314354 l) 401800454957157 (n l 401800455154789 l)) 401800455547246 (n (n l 401800456073070 l) 401826191207525 (n l 401826209162604 l)))) 402839602296178 (n (n (n (n l 402839787693426 l) 402839820660590 (n l 402839821447781 l)) 402839854215781 (n (n l 402856716034418 l) 402873895314796 (n l 402874213687669 l))) 402899832235109 (n (n (n l 402899833021810 l) 402899983754085 (n l 403943610086770 l)) 403960572832114 (n (n l 403973674983797 l) 404003438556517 (n l 404012028290917 l))))) 404012044743781 (n (n (n (n (n l 404012128104037 l) 404016524653413 (n l 404020618488165 l)) 404025198735214 (n (n l 405038709171045 l) 405038710154610 (n l 405038776285541 l))) 405038776804722 (n (n (n l 405038810555762 l) 405038810754149 (n l 405038811148901 l)) 405038844505966 (n (n l 405055839104613 l) 405055889041253 (n l 405055923775846 l)))) 405055990884716 (n (n (n (n l 405056041020517 l) 405068824340837 (n l 405068825326949 l)) 405068825522030 (n (n l 405068874609509 l) 405072952586853 (n l 405073069831269 l))) 405073154106738 (n (n (n l 405073187598190 l) 405085770114418 (n l 405085770315109 l)) 405085837882739 (n (n l 405085903480677 l) 405098789237861 (n l 405098789761637 l)))))))
def tFrench001 : T := n tFrench0010 395203386307685 tFrench0011
def tFrench00 : T := n tFrench000 389662727173221 tFrench001
def tFrench0100 : T := (n (n (n (n (n (n (n l 405098973192565 l) 405098973458286 (n l 405098990497646 l)) 405111674135397 (n (n l 405111674466158 l) 405111674660210 (n l 405111774933605 l))) 405124441467235 (n (n (n l 405124559365490 l) 405124609696114 (n l 405124845038693 l)) 406223936774514 (n (n l 407237581958757 l) 407237683276142 (n l 407237800060005 l)))) 407237849868133 (n (n (n (n l 407254812944229 l) 407254912820582 (n l 407254929601381 l)) 407254930384242 (n (n l 407254945854052 l) 407254947229545 (n l 407254997494126 l))) 407255030982002 (n (n (n l 407271958208885 l) 407272008803429 (n l 407272125850994 l)) 407272210658661 (n (n l 407272227693932 l) 407297879732837 (n l 407297895721326 l))))) 407297979670901 (n (n (n (n (n l 407297979934066 l) 407297997499493 (n l 407323515055205 l)) 407323582293362 (n (n l 407340946320741 l) 408337077003634 (n l 408337143394921 l))) 408337194903922 (n (n (n l 408337244054629 l) 408337244583525 (n l 408337245365618 l)) 408337261093993 (n (n l 408337395838830 l) 408337396295026 (n l 408337411829364 l)))) 408354524850542 (n (n (n (n l 408371520758124 l) 408371621555301 (n l 408371671363438 l)) 408371739321714 (n (n l 408397223125356 l) 408397239907693 (n l 408397373792628 l))) 408397373860204 (n (n (n l 408397390443109 l) 408397408072293 (n l 408397475506546 l)) 408397525705573 (n (n l 408401619345772 l) 408418663951461 (n l 408418949620596 l)))))) 408422976874860 (n (n (n (n (n (n l 408423245441381 l) 409436755947124 (n l 409436856542578 l)) 409436889902441 (n (n l 409453969306213 l) 409453969372530 (n l 409466871898488 l))) 409471132722277 (n (n (n l 409471217002866 l) 409471249641061 (n l 409496902005861 l)) 409496986019941 (n (n l 409496986088037 l) 409496987137381 (n l 409497087077989 l)))) 409509585906019 (n (n (n (n l 409509586037106 l) 409509653997932 (n l 409509719795557 l)) 409522655555685 (n (n l 409522689434988 l) 409522789512562 (n l 409539852657006 l))) 409539902467950 (n (n (n l 410583646694757 l) 410592052606309 (n l 410609113983342 l)) 410617923004773 (n (n l 411635628075374 l) 411635779466085 (n l 411635779661678 l))))) 411635846313330 (n (n (n (n (n l 411635880125810 l) 411635896644984 (n l 411635897557356 l)) 411652992755058 (n (n l 411653060323698 l) 411653060587381 (n l 411653060650354 l))) 411653077495662 (n (n (n l 411653160136308 l) 411669954327907 (n l 411669954978917 l)) 411670138677614 (n (n l 411670189731694 l) 411670256117605 (n l 411670256383346 l)))) 411670256643950 (n (n (n (n l 411670257427820 l) 411670306448229 (n l 411695825905010 l)) 411695859329390 (n (n l 411695908610414 l) 411695909793125 (n l 411696009143141 l))) 411696010388856 (n (n (n l 411696126584677 l) 99468837382287214 (n l 99468854478793829 l)) 99468897578935666 (n (n l 99468897630316914 l) 99468910179608934 (n l 99468910313891186 l)))))))
def tFrench0101 : T := (n (n (n (n (n (n (n l 99468914541355877 l) 99468914810053733 (n l 99468940546367852 l)) 99469936961348974 (n (n l 99469945602270578 l) 99469966808737138 (n l 99469997007467621 l))) 99471075177882994 (n (n (n l 99471087862179186 l) 99471096569685362 (n l 99471096652458354 l)) 99471109269975909 (n (n l 99471126449775205 l) 99472595798353266 (n l 99473256685859429 l)))) 99473256819681381 (n (n (n (n l 99473256970810744 l) 99474352120227186 (n l 99474407736894834 l)) 99476585285053541 (n (n l 99476611055641445 l) 99477693723338098 (n l 99477719459587442 l))) 99479832566261106 (n (n (n l 99479866841591412 l) 99479879659120485 (n l 99479879761094002 l)) 99479879861233010 (n (n l 99479913952932709 l) 99480932110923122 (n l 99480992206775666 l))))) 99480996401214834 (n (n (n (n (n l 99481017993227892 l) 99482031489643365 (n l 99482087206708594 l)) 99482087373824869 (n (n l 99482091652738405 l) 99482091719057772 (n l 99482112975859301 l))) 99482130222249336 (n (n (n l 99484230462170482 l) 99484277572266354 (n l 99484294819112306 l)) 99484295088399730 (n (n l 99485415805056355 l) 99486433780462181 (n l 99486433981723749 l)))) 99486442470339429 (n (n (n (n l 99486481125044837 l) 99486502500066674 (n l 99486502600533362 l)) 99486506727401827 (n (n l 99486511088757861 l) 99487593421497714 (n l 99487606507726194 l))) 99487610600386420 (n (n (n l 99488645738227058 l) 99488709978715493 (n l 99488710112994674 l)) 99489732180405861 (n (n l 99489732248102757 l) 99489740904098917 (n l 99489753991374194 l)))))) 99489809724960357 (n (n (n (n (n (n l 99490827614774642 l) 99490827682276197 (n l 99490844912348261 l)) 99749234340095346 (n (n l 99749259941342821 l) 99749268513974117 (n l 99749285660812658 l))) 99749285928724325 (n (n (n l 99749290257772398 l) 99753657988576357 (n l 99753683723837813 l)) 99753683875098213 (n (n l 99753683892659297 l) 99753688220266085 (n l 99758013085282158 l)))) 99758017714809957 (n (n (n (n l 99758056151282276 l) 99758064557191781 (n l 99758069104470373 l)) 99758069171974245 (n (n l 99758086066366836 l) 99758116097389157 (n l 99761307340862052 l))) 99761341835011442 (n (n (n l 99761367656260978 l) 99761367723241326 (n l 99764661744137586 l)) 99764678857945701 (n (n l 99764691960949102 l) 99767904544974949 (n l 99767904629253490 l))))) 99767938787140709 (n (n (n (n (n l 99767938921490533 l) 99767964676023666 (n l 99767964793008997 l)) 99767964859200882 (n (n l 99767990529127781 l) 99767990628740724 (n l 99771237524533102 l))) 99771280490325362 (n (n (n l 99771284601070962 l) 99771293056003173 (n l 99771293124293733 l)) 100030691901599598 (n (n l 100030722150788981 l) 100030722268688238 (n l 100030734918510958 l)))) 100030734984704613 (n (n (n (n l 100030743508709230 l) 100030743759646309 (n l 100030743776616818 l)) 100030752030354533 (n (n l 100030752266281324 l) 100030752316023653 (n l 100030752333589605 l))) 100030752365963365 (n (n (n l 100030760637918821 l) 100030760754507637 (n l 100030760838326117 l)) 100030760856351845 (n (n l 100030760905695605 l) 100030764948743269 (n l 100030765218493029 l)))))))
def tFrench010 : T := n tFrench0100 99468910413702514 tFrench0101
def tFrench0110 : T := (n (n (n (n (n (n (n l 100030777868316261 l) 100035133082791013 (n l 100035141806743916 l)) 100035159019315573 (n (n l 100038384288950638 l) 100038384371987826 (n l 100038384388567653 l))) 100038384472452974 (n (n (n l 100038401568895845 l) 100038418631127653 (n l 100038418648428398 l)) 100038444452112754 (n (n l 100039509703880293 l) 100039539853256050 (n l 100039565371403877 l)))) 100039565539632494 (n (n (n (n l 100042782369017710 l) 100042782435276146 (n l 100042782503429490 l)) 100042782586529138 (n (n l 100042816694936946 l) 100042816945743717 (n l 100042842581329765 l))) 100046089359684453 (n (n (n l 100046115212518770 l) 100046115346539890 (n l 100046128147493481 l)) 100046128198282853 (n (n l 100046128248939884 l) 100046132559831924 (n l 100046136636961396 l))))) 100046136687551858 (n (n (n (n (n l 100046136921908084 l) 100046136955730021 (n l 100046153800049013 l)) 100046153833342821 (n (n l 100046154068484980 l) 100046158398057829 (n l 100046166920884837 l))) 100046166953125733 (n (n (n l 100046166986940789 l) 100046167021349234 (n l 100049379438523493 l)) 100049379655775333 (n (n l 100049396820043122 l) 100049413680686450 (n l 100049413966422380 l)))) 100049439702738290 (n (n (n (n l 100049439751760997 l) 100049465236873580 (n l 100049482635568498 l)) 100052682268570981 (n (n l 100052712500588133 l) 100052729714206066 (n l 100052750854023526 l))) 100052751155033458 (n (n (n l 100057076104262245 l) 100057131854689637 (n l 100312197043742066 l)) 100312218719319410 (n (n l 100312248733952366 l) 100316650891274610 (n l 100316650958382450 l)))))) 100320958876839540 (n (n (n (n (n (n l 100320984580776300 l) 100321019192501349 (n l 100321031824565618 l)) 100321049005221234 (n (n l 100327564654245234 l) 100327607285411429 (n l 100327607537788274 l))) 100327629079406962 (n (n (n l 100327633357202802 l) 100327641678443890 (n l 100330871763199346 l)) 100334217307777381 (n (n l 100334217424369765 l) 100334225829555301 (n l 100599156592305522 l)))) 100599156726786405 (n (n (n (n l 100606836280487790 l) 100606883306300786 (n l 100606896408982373 l)) 100607939984848485 (n (n l 100607940035307621 l) 100607944381393268 (n l 100607944431333989 l))) 100607952686048101 (n (n (n l 100607952921389426 l) 100607956980557170 (n l 100607978523485554 l)) 100608021405133170 (n (n l 100608021641127282 l) 100613493193207662 (n l 100613506079483250 l))))) 100613506145870693 (n (n (n (n (n l 100613506313905522 l) 100613510608544099 (n l 100613510658090085 l)) 100618926662313330 (n (n l 100618943708818533 l) 100618943791850866 (n l 100618956392129906 l))) 100618960989611378 (n (n (n l 100618990987208050 l) 100619012411778418 (n l 100711422776798309 l)) 100711422776995701 (n (n l 100711422777191781 l) 100711422927791973 (n l 100711422994507122 l)))) 100711422994509413 (n (n (n (n l 100711423062402149 l) 100875121194202213 (n l 100875121445925477 l)) 100875146913147250 (n (n l 100875159781077861 l) 100875164210457701 (n l 100875185584174450 l))) 100875185634503797 (n (n (n l 100875194274903397 l) 100879566468245874 (n l 100879583949452658 l)) 100879596616707173 (n (n l 100879970681514350 l) 100879970681582962 (n l 100883917286696306 l)))))))
def tFrench0111 : T := (n (n (n (n (n (n (n l 100883956193453426 l) 100883986241647205 (n l 100887207299147122 l)) 100887207466857829 (n (n l 100887224730087278 l) 100887226140942709 (n l 100887293416005996 l))) 100890579033222757 (n (n (n l 100890583310625893 l) 100890591783907941 (n l 100893804334771301 l)) 100893804486223218 (n (n l 100893804636501362 l) 100893821548520818 (n l 100893823210648165 l)))) 100893838593387621 (n (n (n (n l 100893838896492398 l) 100893838946561125 (n l 100893864564451173 l)) 100893864582472044 (n (n l 100893864683136370 l) 100897128673732966 (n l 100897175917393272 l))) 101156634758768997 (n (n (n l 101156634825484645 l) 101156660577920366 (n l 101156694954634341 l)) 101161063188620652 (n (n l 101161445657505396 l) 101161445658356069 (n l 101168716803433842 l))))) 101172028004201842 (n (n (n (n (n l 101172036594591090 l) 101172053824793701 (n l 101172066626203502 l)) 101172066658972261 (n (n l 101175279261934956 l) 101175279462934894 (n l 101175279530371444 l))) 101175313755301234 (n (n (n l 101175313772340594 l) 101175339441350002 (n l 101175339558135154 l)) 101175365428929906 (n (n l 101178612423684709 l) 101438071197624690 (n l 101438135638126452 l)))) 101442533752139365 (n (n (n (n l 101442546720667000 l) 101442920635330414 (n l 101453507393054565 l)) 101453511705064818 (n (n l 101453511722689906 l) 101453511805728120 (n l 101453528802422638 l))) 101453528852031333 (n (n (n l 101453528868810341 l) 101453541736281464 (n l 101460087266440568 l)) 101464515411932005 (n (n l 101726190606378354 l) 101732736034825586 (n l 101732783213146981 l)))))) 101732796266145138 (n (n (n (n (n (n l 101732796366873970 l) 101733844070720882 (n l 101733848549976421 l)) 101733848682947444 (n (n l 101733861182694770 l) 101733861316257138 (n l 101733891465045362 l))) 101733908493857893 (n (n (n l 101733908561227365 l) 101733912789545829 (n l 101733917335841893 l)) 101733921446978930 (n (n l 101738302313620850 l) 101742700292961125 (n l 102001046987762034 l)))) 102001068630173042 (n (n (n (n l 102001102704897908 l) 102005492093709413 (n l 102016440183583333 l)) 102016461474129266 (n (n l 102016461541500274 l) 102016491790950764 (n l 102023007105213810 l))) 102023075825153125 (n (n (n l 102023080304010085 l) 102291343945069925 (n l 102563971305796453 l)) 102563997059081586 (n (n l 102563997075203442 l) 102564013952819573 (n l 102564014003612773 l))))) 102564018264569202 (n (n (n (n (n l 102564018331412325 l) 102564035511547250 (n l 102564048581256562 l)) 102568369352700517 (n (n l 102568438054614629 l) 102568459362202981 (n l 102568820541448556 l))) 102568820541449586 (n (n (n l 102572767147090789 l) 102572767315127909 (n l 102572777466259301 l)) 102572784495125874 (n (n l 102572810280985701 l) 102572827544740965 (n l 102572840211543405 l)))) 102572848968988018 (n (n (n (n l 102579381464036709 l) 102579407116462435 (n l 102579437231565157 l)) 102585978734146149 (n (n l 102585987290459764 l) 102586008463831653 (n l 102586051748787576 l))) 102845446080786021 (n (n (n l 102845463143868782 l) 102845463210652769 (n l 102845463277958501 l)) 102845471917895534 (n (n l 102845476263585138 l) 102845484619031922 (n l 102845484735231346 l)))))))
def tFrench011 : T := n tFrench0110 100883956058387820 tFrench0111
def tFrench01 : T := n tFrench010 100030773824417646 tFrench011
def tFrench0 : T := n tFrench00 405098839434606 tFrench01
def tFrench1000 : T := (n (n (n (n (n (n (n l 102845523323089509 l) 102845536292135276 (n l 102849891254101362 l)) 102850295519011180 (n (n l 102854233802171762 l) 102854242341970533 (n l 102854280895623022 l))) 102854285140784485 (n (n (n l 102854289435484524 l) 102854289536476530 (n l 102854306480483429 l)) 102854311077833829 (n (n l 102860843488800357 l) 102860886421102956 (n l 102860886588352869 l)))) 102860886673486437 (n (n (n (n l 102860899590960498 l) 102860903583932789 (n l 102860903853421157 l)) 102860903869408626 (n (n l 102860916738191214 l) 102860916787342964 (n l 102867500822524517 l))) 102871898800612453 (n (n (n l 103131383763137912 l) 103131396581584485 (n l 103131396615335790 l)) 103135790332212325 (n (n l 103142387116829797 l) 103142387352171109 (n l 103142391698057586 l))))) 103142391764312437 (n (n (n (n (n l 103148902800385394 l) 103148967325950316 (n l 103409505815062898 l)) 103409534217184626 (n (n l 103409568510273906 l) 103409568778970482 (n l 103410595276023154 l))) 103410605326688622 (n (n (n l 103410668188889701 l) 103411746275946100 (n l 103420516666795378 l)) 103421586046019429 (n (n l 103421598965723749 l) 103422694198633842 (n l 103424914579091310 l)))) 103424961740371301 (n (n (n (n l 103427079124907384 l) 103427096338787429 (n l 103427105129589100 l)) 103427113468126053 (n (n l 103430450573697390 l) 103430468038387557 (n l 103431477389782894 l))) 103689918137722981 (n (n (n l 103689918355956085 l) 103689926963651954 (n l 103689927131297139 l)) 103689935385752421 (n (n l 103689935602674030 l) 103689939914944366 (n l 103689965684221797 l)))))) 103694294928618085 (n (n (n (n (n (n l 103694307830362981 l) 103694307929843813 (n l 103694316235746405 l)) 103694333415418232 (n (n l 103697559169625966 l) 103698675912831589 (n l 103698677373100901 l))) 103698714264428917 (n (n (n l 103698722888905829 l) 103698731645760869 (n l 103698735739530853 l)) 103698748826477938 (n (n l 103701956964479588 l) 103701957015727716 (n l 103701957066320242 l)))) 103701957249950069 (n (n (n (n l 103701974447449458 l) 103702017278961010 (n l 103702043031594853 l)) 103705274442871909 (n (n l 103705290111280498 l) 103705290128715630 (n l 103705302710973029 l))) 103705307206739045 (n (n (n l 103705307257595250 l) 103705333095297637 (n l 103705337070577010 l)) 103705341549701486 (n (n l 103705341651350117 l) 103705341668321646 (n l 103705341718391154 l))))) 103708554136021349 (n (n (n (n (n l 103708614181087077 l) 103708614215036516 (n l 103708640118399349 l)) 103711861193731950 (n (n l 103711908370674533 l) 103711908505610598 (n l 103711917095547493 l))) 103993362192033138 (n (n (n l 104252825275823480 l) 104252846666773874 (n l 104252902451144050 l)) 104257219229148530 (n (n l 104257231778312805 l) 104257232062998894 (n l 104257249026008434 l)))) 104257249193846130 (n (n (n (n l 104257257548835174 l) 104257257616074098 (n l 104257262094936434 l)) 104257266222330484 (n (n l 104257266457404786 l) 104257274912531826 (n l 104257275013198693 l))) 104257275046751333 (n (n (n l 104257287864279924 l) 104257291975289202 (n l 104257300632859237 l)) 104261634354865522 (n (n l 104261685793156197 l) 104268214126867832 (n l 104268256959685477 l)))))))
def tFrench1001 : T := (n (n (n (n (n (n (n l 104268291453512805 l) 104268291503382901 (n l 104268291637866085 l)) 104268308499754341 (n (n l 104274828594607480 l) 104534291764241778 (n l 104534296058095717 l))) 104534313071244133 (n (n (n l 104534360298450533 l) 104534369174185330 (n l 104534373484816229 l)) 104536486441936236 (n (n l 104536503689179749 l) 104536520684102501 (n l 104536520834442610 l)))) 104536559607638382 (n (n (n (n l 104538694105785714 l) 104538736819793509 (n l 104538736836765042 l)) 104538736887227237 (n (n l 104538758395031156 l) 104538758580630117 (n l 104538758646948709 l))) 104538775759185765 (n (n (n l 104539145379149165 l) 104539145379408242 (n l 104543104885613938 l)) 104543130638771045 (n (n l 104549727976189029 l) 104549732137134444 (n l 104549736331441522 l))))) 104549753444459890 (n (n (n (n (n l 104549762319610725 l) 104549766346928741 (n l 104549766379498597 l)) 104549766546944101 (n (n l 104550780226855276 l) 104555178273369966 (n l 104555195420013933 l))) 104555264105346418 (n (n (n l 104556281945746789 l) 104556299024955493 (n l 104556312178029938 l)) 104556324794233957 (n (n l 104556341958435429 l) 104556350564033381 (n l 104556350782141812 l)))) 104556355027034996 (n (n (n (n l 104560722941403749 l) 104560727069518949 (n l 104560731347776357 l)) 104560731665561701 (n (n l 104815766689899890 l) 104815771119086693 (n l 104815796754867570 l))) 104815813767165298 (n (n (n l 104815813884863858 l) 104815835543596645 (n l 104815848394678645 l)) 104820216393461614 (n (n l 104823477768318309 l) 104824577279943781 (n l 104824640242869618 l)))))) 104831211342493029 (n (n (n (n (n (n l 104831211425587573 l) 104831228605195365 (n l 104831228672568948 l)) 104831241306006898 (n (n l 104831241575163250 l) 104834454259853676 (n l 104834471289709938 l))) 104834488519648626 (n (n (n l 104834488620114284 l) 104837804318291045 (n l 104837825474162277 l)) 104837834283246962 (n (n l 104842215048705381 l) 105111531056360805 (n l 105111565281879410 l)))) 105111565550056051 (n (n (n (n l 105115929102873965 l) 105378720754330981 (n l 105378746741256805 l)) 105378759407987813 (n (n l 105378763955073637 l) 105378768132795493 (n l 105383119118759282 l))) 105383123163051109 (n (n (n l 105383144787636836 l) 105383183275881061 (n l 105383570309278062 l)) 105387521142056805 (n (n l 105387521215332719 l) 105387534361916786 (n l 105387555685492581 l))))) 105387589928973157 (n (n (n (n (n l 105387590146420325 l) 105394140005888613 (n l 105394191410882930 l)) 105394208473115749 (n (n l 105946520262438766 l) 106509470198297189 (n l 25464022348642608498 l))) 25464025647144068466 (n (n (n l 25464041023194162546 l) 25464305987997164914 (n l 25464306005412439410 l)) 25464306035225093490 (n (n l 25464306048293758053 l) 25464306061229123685 (n l 25464312598270600562 l)))) 25464322541003304293 (n (n (n (n l 25464595176752441702 l) 25464598475572540005 (n l 25465153728659350898 l)) 25465153797361526130 (n (n l 25465999321920728165 l) 25466839292969838949 (n l 25466852543094352242 l))) 25467123010104552805 (n (n (n l 25467134022214904933 l) 25467135061596989797 (n l 25467400078243099237 l)) 25467400086748686693 (n (n l 25467400095540275557 l) 25467406671034938213 (n l 25467406696854156664 l)))))))
def tFrench100 : T := n tFrench1000 104268287024851302 tFrench1001
def tFrench1010 : T := (n (n (n (n (n (n (n l 25467420938832147557 l) 25467978404296354149 (n l 25467979456613542252 l)) 25467979516744066418 (n (n l 25468266429148657005 l) 25468538025684593006 (n l 25468539108066685541 l))) 25468539125128064628 (n (n (n l 25468542423680705906 l) 25468544605338756466 (n l 25468823911323694181 l)) 25468827197259540850 (n (n l 25468827214221177957 l) 25468827239956702578 (n l 25469109771680639334 l)))) 25469109827296847218 (n (n (n (n l 25469391302608250981 l) 25469660609925969266 (n l 25535805116078388325 l)) 25535807255121847397 (n (n l 25535810527887058290 l) 25535810562330552165 (n l 25535812735282541157 l))) 25535812774071203173 (n (n (n l 25535812795747624306 l) 25535819323896786021 (n l 25535819405434448229 l)) 25535820436444112242 (n (n l 25535821523070510450 l) 25537042118315959666 (n l 25537042118449654124 l))))) 25538062362060748133 (n (n (n (n (n l 25538065673497307493 l) 25538070105904476777 (n l 25538894713653324146 l)) 25538899133442649716 (n (n l 25539753410810176882 l) 25539761150559743077 (n l 25539761154687071589 l))) 25540587991943178085 (n (n (n l 25540588365773236325 l) 25540592312563557746 (n l 25540592351167213172 l)) 25540598909516477029 (n (n l 25541440074516031854 l) 25607858256235230309 (n l 25607868130632951154 l)))) 25607868182038473061 (n (n (n (n l 25607868211901592165 l) 25607869221503591525 (n l 25607869240195510881 l)) 25607869285643284069 (n (n l 25607874718793821797 l) 25607874736259556722 (n l 25607879117008102770 l))) 25608990779233366629 (n (n (n l 25608996233807488370 l) 25608996298282919282 (n l 25609826416475796069 l)) 25609826429527487858 (n (n l 25609826438118338414 l) 25609826442245465458 (n l 25609830805931846757 l)))))) 25609830823010788722 (n (n (n (n (n (n l 25609838506959794789 l) 25609841753904144756 (n l 25609841831046313061 l)) 25610121038431282546 (n (n l 25610122139520822625 l) 25610126527516403058 (n l 25610967709645960293 l))) 25611798936224884082 (n (n (n l 25611800009731827058 l) 25611808790357766757 (n l 25611808822921553266 l)) 25611809922432787557 (n (n l 25611810983624929893 l) 25611810996241589618 (n l 25611811026474657138 l)))) 25611811047949102693 (n (n (n (n l 25611815424419391589 l) 25611816519636972901 (n l 25612645589992109157 l)) 25613489959204579698 (n (n l 25613497672915641714 l) 25613497702980937074 (n l 25614623555725849189 l))) 25681052715381450098 (n (n (n l 25681052732679677298 l) 25681053896346987621 (n l 25681059320890815589 l)) 25681059389677397362 (n (n l 25681059394123031922 l) 25681062610986034546 (n l 25681157306257075301 l))))) 25681157306275033957 (n (n (n (n (n l 25681157306391815013 l) 25681157306458403444 (n l 25681157306508997236 l)) 25682165468410377573 (n (n l 25682178615288227941 l) 25682178649649145202 (n l 25682184129842800998 l))) 25682185221066483058 (n (n (n l 25682185276800329074 l) 25682185289584371058 (n l 25682185293744989029 l)) 25682188528140970354 (n (n l 25683867499324075109 l) 25683868564760917362 (n l 25683870763666992741 l)))) 25683875161830944622 (n (n (n (n l 25683876261241906546 l) 25684707496126342514 (n l 25684714123563463269 l)) 25686683314512226661 (n (n l 25753384104811063654 l) 25753384160612410738 (n l 25753384173798256494 l))) 25755350014572127602 (n (n (n l 25755350031751997810 l) 25755365425014994290 (n l 25755365455030740338 l)) 25755365467965646194 (n (n l 25755632588926641522 l) 25755633722848535922 (n l 25755633748819535218 l)))))))
def tFrench1011 : T := (n (n (n (n (n (n (n l 25755637034401293682 l) 25755640285657982322 (n l 25755644769805366648 l)) 25755649115943364978 (n (n l 25755649141695932261 l) 25755650198375722597 (n l 25755651280876037490 l))) 25755651297971040869 (n (n (n l 25755651341039068530 l) 25755651353588688242 (n l 25755653513955929189 l)) 25757039963943822706 (n (n l 25757054276386972517 l) 25757055442956477810 (n l 25757617237664098661 l)))) 25758447356007441778 (n (n (n (n l 25758447373320810100 l) 25758447386223667558 (n l 25758452896616441202 l)) 25758453961549833061 (n (n l 25758460614521484645 l) 25758461679774098802 (n l 25758461705442911602 l))) 25758466047739128166 (n (n (n l 25758466103354946149 l) 25782124230810235493 (n l 25782124230810628965 l)) 25782124230860759909 (n (n l 25782124247805748594 l) 25782124269615211890 (n l 25782124278004018533 l))))) 25782124282349446510 (n (n (n (n (n l 25782124286460652645 l) 25782124286695273829 (n l 25782124291090378853 l)) 25782124295183885682 (n (n l 25782124303639930226 l) 25782124303774541170 (n l 25782124303874616421 l))) 25782124303925340532 (n (n (n l 25782124312364606834 l) 25824029994788418936 (n l 25824047561355520101 l)) 25824048609126933874 (n (n l 25825174582048743788 l) 25825272494517674348 (n l 25825272494568727397 l)))) 25826283926518262885 (n (n (n (n l 25826292703954301541 l) 25826292721132857189 (n l 25826294902875710834 l)) 25827125115859858802 (n (n l 25827129892064684133 l) 25827147033079014770 (n l 25827983765470865765 l))) 25827983778421828709 (n (n (n l 25827983834122645093 l) 25827988176402280302 (n l 25827988202440123762 l)) 25827991483644142962 (n (n l 25828813939665299826 l) 25828818741942380914 (n l 25828822688798961518 l)))))) 25896099601665254770 (n (n (n (n (n (n l 25896105095147579762 l) 25896105168077288805 (n l 25897226609674579301 l)) 25897330088506387557 (n (n l 25899198094286091640 l) 25900049107696512101 (n l 25900049116352835172 l))) 25900871499393889385 (n (n (n l 25900880295487697509 l) 25901720374111462770 (n l 25901724750398715493 l)) 25901735775579695462 (n (n l 25902855052646904933 l) 25902860554802061684 (n l 25968145131459929189 l)))) 25968158346822578030 (n (n (n (n l 25968162740741499237 l) 25969387682543531373 (n l 25970396914059732338 l)) 25970407891995291252 (n (n l 25970415670131257957 l) 25972103411788835941 (n l 25974902768494536044 l))) 26043309945071957093 (n (n (n l 26043309996879998830 l) 26043592545313320037 (n l 26043592571065887845 l)) 26043595831181993330 (n (n l 26043595856850806130 l) 26043862965312972146 (n l 26043862982425078117 l))))) 26043862999437241972 (n (n (n (n (n l 26043863012406617458 l) 26043863025341919845 (n l 26043864150472681830 l)) 26043865624148732276 (n (n l 26043866310941042034 l) 26043866323977332082 (n l 26043866349763653486 l))) 26043870678822970738 (n (n (n l 26043875119818174068 l) 26043876168092640626 (n l 26043880566088626789 l)) 26043880617527571557 (n (n l 26043880621772793202 l) 26043880638952399732 (n l 26043880643298092402 l)))) 26043881729873638757 (n (n (n (n l 26043881742759389542 l) 26043883856050351982 (n l 26043883873147053426 l)) 26043883916147123570 (n (n l 26045002115043128677 l) 26045005357659022706 (n l 26045005376585295212 l))) 26113407131386606437 (n (n (n l 26116221859913754982 l) 26117895299329781364 (n l 26256375533398025586 l)) 26256388748743962213 (n (n l 26257618058612141413 l) 26257618058929599076 (n l 26258631031363367525 l)))))))
def tFrench101 : T := n tFrench1010 25755635904875947378 tFrench1011
def tFrench10 : T := n tFrench100 25467415458403346789 tFrench101
def tFrench1100 : T := (n (n (n (n (n (n (n l 26258639427721061477 l) 26258641622265061749 (n l 26258647145795182956 l)) 26260323875340511598 (n (n l 26262006144993356134 l) 26328440819705013614 (n l 26328444109399028837 l))) 26328445213373461608 (n (n (n l 26328446273995433330 l) 26328446295469091941 (n l 26328446330164309620 l)) 26328450659475025774 (n (n l 26328450667863174756 l) 26328450693834829157 (n l 26328450728211084658 l)))) 26328450740828005746 (n (n (n (n l 26328451767493489765 l) 26328452931194549605 (n l 26328454035302081637 l)) 26329566710887445874 (n (n l 26329572238561273701 l) 26329576567938049129 (n l 26329577735884072306 l))) 26329675652599739237 (n (n (n l 26329675652833834085 l) 26329675652867384690 (n l 26330702519234487666 l)) 26332377062608041336 (n (n l 26332386945462007154 l) 26332386971232464485 (n l 26332386992388009573 l))))) 26332386996884172404 (n (n (n (n (n l 26334073643359824997 l) 26334075795322531694 (n l 26334080158824950885 l)) 26334080177667075685 (n (n l 26334081277178770797 l) 26334081292595455342 (n l 26334082358032559982 l))) 26335206140336172133 (n (n (n l 26335208287820150117 l) 26400508322249664883 (n l 26400510452536274798 l)) 26400511573488658277 (n (n l 26400511633468257637 l) 26401636433964655986 (n l 26404432492134297189 l)))) 26404439080311289202 (n (n (n (n l 26404439084640793701 l) 26404443409889981816 (n l 26404448954408528230 l)) 26404451136335078770 (n (n l 26404453301233218930 l) 26404453318295450213 (n l 26406127934566984805 l))) 26406132274146931311 (n (n (n l 26406140024901101926 l) 26472838543330011494 (n l 26472848439186449778 l)) 26472848503324503141 (n (n l 26473112304813174638 l) 26473131069459228018 (n l 26473131082360055154 l)))))) 26473132142965125733 (n (n (n (n (n (n l 26473960045374825842 l) 26473960062369490290 (n l 26474818781101977454 l)) 26475648877870737766 (n (n l 26476208611194664312 l) 26476215199473956197 (n l 26476774138330637682 l))) 26476785833275061614 (n (n (n l 26476785846008505714 l) 26477335589021443442 (n l 26477346541170683508 l)) 26477615938683037042 (n (n l 26477633496644153957 l) 26478197618803959154 (n l 26544613623108627557 l)))) 26544616904666014821 (n (n (n (n l 26544619069228476782 l) 26544619077852554610 (n l 26544619103637826913 l)) 26544619124828172142 (n (n l 26544623441320835173 l) 26544623449927347301 (n l 26544623463080748402 l))) 26544623518646887794 (n (n (n l 26544623522874353010 l) 26544623531531856242 (n l 26544625657758770540 l)) 26544625674720535397 (n (n l 26544627873861103470 l) 26544627899581031794 (n l 26545749362887255410 l))))) 26545749393052820850 (n (n (n (n (n l 26545749405785749605 l) 26545848434914063461 (n l 26545848434914260333 l)) 26545848434980645989 (n (n l 26545848434981759346 l) 26546601540132631909 (n l 26546858830349885804 l))) 26547701051945021294 (n (n (n l 26548547628402242661 l) 26548550257391921509 (n l 26548557528267580786 l)) 26548557597054561893 (n (n l 26548559701807031660 l) 26548564172683179365 (n l 26548565225134190446 l)))) 26549389905915639141 (n (n (n (n l 26549394682321727341 l) 26549398671944083814 (n l 26549405256061838706 l)) 26549405264818697573 (n (n l 26549405268946347378 l) 26549405303306416997 (n l 26549405307601314405 l))) 26549411827361407845 (n (n (n l 26549697696140063589 l) 26550252975247943026 (n l 26551378840912487525 l)) 26622296314272836709 (n (n l 26622296318819266414 l) 26622307318045699700 (n l 26688722197019911538 l)))))))
def tFrench1101 : T := (n (n (n (n (n (n (n l 26688732049674889586 l) 26688732079756044133 (n l 26688733132090467698 l)) 26688740863031600498 (n (n l 26688746386275329394 l) 26689848054110972274 (n l 26689848109929096562 l))) 26689848139691353458 (n (n (n l 26689849196555822450 l) 26689859031980406117 (n l 26689859050671203429 l)) 26689859092043031922 (n (n l 26689860165650113906 l) 26689860191553545586 (n l 26689862390645024114 l)))) 26689866788606469490 (n (n (n (n l 26689866801290110322 l) 26689868927517026405 (n l 26689963622738127218 l)) 26689963622838923118 (n (n l 26690973966617768805 l) 26690988290568643954 (n l 26694358310886662517 l))) 26694369310130926949 (n (n (n l 26760791834246082414 l) 26760791851291731314 (n l 26760796231974481253 l)) 26760799547973529205 (n (n l 26760800681778374002 l) 26761340537524022373 (n l 26761348197197639009 l))))) 26761362519369213298 (n (n (n (n (n l 26761912253673731442 l) 26761917802687392869 (n l 26761917806916035429 l)) 26761928802300882021 (n (n l 26762021216776512357 l) 26762021216809674098 (n l 26762021216927577458 l))) 26762021217077652837 (n (n (n l 26763034189627616357 l) 26763034189644653938 (n l 26763041460521104749 l)) 26763043659813515877 (n (n l 26763049174383555941 l) 26764727003440838008 (n l 26764730310667363429 l)))) 26764731431569352050 (n (n (n (n l 26764732530913735781 l) 26764740180316616056 (n l 26764740218905322866 l)) 26764740253331907954 (n (n l 26764740261854472562 l) 26764999665060771192 (n l 26765007371894813285 l))) 26766134404212094323 (n (n (n l 26766134417096992114 l) 26766147559495136632 (n l 26766151991902303333 l)) 26766408208360825204 (n (n l 26766408220993808754 l) 26766409238907224179 (n l 26766423588503905650 l)))))) 26766425757310874725 (n (n (n (n (n (n l 26766425774525146482 l) 26766425787627828069 (n l 26832847255014039918 l)) 26832847280700024178 (n (n l 26832849445278870629 l) 26832852803944080754 (n l 26832856076909635429 l))) 26833974284430501228 (n (n (n l 26833975319416564837 l) 26833979769002812786 (n l 26833979790476864613 l)) 26834078811015833966 (n (n l 26834078811132882533 l) 26835105634599924325 (n l 26836776935139795310 l)))) 26836792328421207397 (n (n (n (n l 26836794531654691941 l) 26836797838862673765 (n l 26837620209236930414 l)) 26837620226232776037 (n (n l 26837620256196289906 l) 26837625058456136805 (n l 26837625058473766770 l))) 26837629001052086636 (n (n (n l 26837629005246784882 l) 26837629043900639589 (n l 26837629056752576613 l)) 26837629078361761138 (n (n l 26837635645047795301 l) 26837635658049347948 (n l 26837635679641756021 l))))) 26905196202453726565 (n (n (n (n (n l 26908009908241919854 l) 26908560772156715621 (n l 26909698719479852660 l)) 26976956910886940260 (n (n l 26976959157321690740 l) 26976959187504161141 (n l 26978090520527856745 l))) 26978090541918811512 (n (n (n l 26978090589198054245 l) 26978193999074911077 (n l 26979204394476204645 l)) 26979208766585861221 (n (n l 26979216407398937189 l) 26979218625264644709 (n l 26979220822692294260 l)))) 26979220887251678053 (n (n (n (n l 26979221973877749112 l) 26979223038728301669 (n l 26979225237968745061 l)) 26980893162815975278 (n (n l 26980903058236271717 l) 26980903139840320882 (n l 27266424375259788392 l))) 27269136780267841893 (n (n (n l 6518935071252238655860 l) 6518935802749861980518 (n l 6519036038241047176550 l)) 6519511982027170804325 (n (n l 6519512544977141785970 l) 6519513389402071459186 (n l 6519516204151839091813 l)))))))
def tFrench110 : T := n tFrench1100 26688726595065375086 tFrench1101
def tFrench1110 : T := (n (n (n (n (n (n (n l 6555929526328235945061 l) 6555929526362529035365 (n l 6556117811103380042341 l)) 6556623331806580861285 (n (n l 6556624755233017325413 l) 6556837365716120597880 (n l 6556838394740340716133 l))) 6574376270393356084594 (n (n (n l 6574376270397516309874 l) 6574376270397650003314 (n l 6574376270397751584114 l)) 6574376270397801329253 (n (n l 6574376270410535429490 l) 6574376270414695851378 (n l 6574376270436405568882 l)))) 6574376270440700864882 (n (n (n (n l 6574376270444996420978 l) 6574376270445095970162 (n l 6574376270453586224498 l)) 6574376270462175044978 (n (n l 6574636041466203497842 l) 6593441950467608310373 (n l 6600223801987908856178 l))) 6600223803040226108786 (n (n (n l 6600223803070005538917 l) 6600223803070072253541 (n l 6600223803087319495525 l)) 6600223803100405982578 (n (n l 6600223803112955274610 l) 6600223804173895427442 (n l 6600223804225620370802 l))))) 6600223810753735714162 (n (n (n (n (n l 6600223812935829907826 l) 6600223812954521368165 (n l 6600223814095504764782 l)) 6600223815152033032549 (n (n l 6600223817333876420197 l) 6600223817333909581428 (n l 6600223817368253457509 l))) 6600223817406673679973 (n (n (n l 6600223818519070012005 l) 6600223819593046126446 (n l 6600223821731855558757 l)) 6600223821749103256940 (n (n l 6600223821761702948716 l) 6600223821761837364581 (n l 6600223821791851079026 l)))) 6600223821804652619621 (n (n (n (n l 6600223823930846438770 l) 6600223823930963095406 (n l 6600223823991059866994 l)) 6611269758540925463653 (n (n l 6611269758626824807794 l) 6611530940945430245989 (n l 6611965817585424953957 l))) 6612177597937148327013 (n (n (n l 6630628754232457589349 l) 6630840514793122656868 (n l 6648163246761208735090 l)) 6649575943222572641893 (n (n l 6667230049804940895602 l) 6721632407403669644658 (n l 6722208586680996357490 l)))))) 6722213375712524530277 (n (n (n (n (n (n l 6723076377991119401573 l) 6740083940508907369061 (n l 6740396967061018996340 l)) 6740396967061137288821 (n (n l 6740396967065263761774 l) 6740396967065331983730 (n l 6740396967099557111653 l))) 6740396967099791337829 (n (n (n l 6740396967104086635109 l) 6740396967134034355301 (n l 6740658708454426435948 l)) 6741813053385468834405 (n (n l 6758843711147497190501 l) 6777910064224567391608 (n l 6778636158495059111525 l)))) 6795737199320819261806 (n (n (n (n l 6795737199329409133669 l) 6795737199329611508069 (n l 6795737199346589852773 l)) 6796645038674194035301 (n (n l 6796645038674227591269 l) 6796645038674329035877 (n l 6796645038674496416114 l))) 6796647742308885495923 (n (n (n l 6832630687420894177638 l) 6832630687429584774514 (n l 6832630687433878889842 l)) 6832630687442519029861 (n (n l 6832630687446813730661 l) 6832630687498237015653 (n l 6832630687506977353582 l))))) 6832630687507061893490 (n (n (n (n (n l 6832630687511289295973 l) 6832894684579711971941 (n l 6851077431503158930533 l)) 6851077431507455076710 (n (n l 6851077431507789902437 l) 6851077431546243604844 (n l 6851077431558994552178 l))) 6851077431567717856632 (n (n (n l 6851336358146916639084 l) 6851339170256538071653 (n l 6851841155707230052716 l)) 6852493517827726142821 (n (n l 6869711439028838099301 l) 6906417663797638689893 (n l 1668828613962330375285093 l)))) 1668829771668909586540914 (n (n (n (n l 1668903626312125872499813 l) 1669013398937223261807986 (n l 1669031845681241355741554 l)) 1669068739169461705402726 (n (n l 1669106684612125039093100 l) 1673515026524481785983589 (n l 1678365898182607225054578 l))) 1678495212654514762510190 (n (n (n l 1678550365623275585106533 l) 1678550365623288285390194 (n l 1678605967041204014051941 l)) 1683040325220664798900837 (n (n l 1683040325220724893836658 l) 1683040325220737627743602 (n l 1683040325220750697000564 l)))))))
def tFrench1111 : T := (n (n (n (n (n (n (n l 1683040325221794190615922 l) 1683040325221811236267378 (n l 1683040325221850142238066 l)) 1683040325222949436287334 (n (n l 1683040325225079924549990 l) 1683040325225135541413234 (n l 1683040325226196750198130 l))) 1683040325226209618454898 (n (n (n l 1683040325226235051795826 l) 1683040325229478088172914 (n l 1683040325233893012170098 l)) 1683040325236075040826738 (n (n l 1683040325236087707624818 l) 1683040325236104886445426 (n l 1683040325238256883426674 l)))) 1683040325239356479795813 (n (n (n (n l 1683040325239390637811058 l) 1683040325240455722198386 (n l 1683040325240473171289458 l)) 1683040325240516154385778 (n (n l 1683040325240528770921317 l) 1683106754726301711623538 (n l 1688014310070273744268389 l))) 1688105462363781787182450 (n (n (n l 1688105779053465739486578 l) 1688106542777669490664818 (n l 1689657293590319313610098 l)) 1689657293593673783404901 (n (n l 1689657293596950960105838 l) 1689657293600287865792876 (n l 1689657294704171837252978 l))))) 1689657296111503871731058 (n (n (n (n (n l 1689657296115906297098094 l) 1689657296120321337879653 (n l 1689657296120377173568869 l)) 1689657296133498297673074 (n (n l 1689657296397445379744869 l) 1689657296401848022429550 (n l 1689657296408453732854130 l))) 1689657296415012097191790 (n (n (n l 1689657297237433910520178 l) 1689657297246203998792037 (n l 1689657297246242820552037 l)) 1689657297246276945995877 (n (n l 1689657297256151411746162 l) 1689657297259424141897332 (n l 1689657297822404177391470 l)))) 1689657298363380894102885 (n (n (n (n l 1689657298367731779007077 l) 1689657298367753086790002 (n l 1689657298378748369923700 l)) 1689657298378778501998962 (n (n l 1689657298930703307729260 l) 1689657298935058153759589 (n l 1689657298941689852094822 l))) 1692485058187563628782962 (n (n (n l 1697207424680268850097765 l) 1697207424683614545602917 (n l 1697207424686865819202925 l)) 1701929791164238007332197 (n (n l 1701929791169769908694894 l) 1702107408060413506514533 (n l 1706793094524337501331820 l)))))) 1711663467305360983420005 (n (n (n (n (n (n l 1720886262881463237702245 l) 1725460911296555214529381 (n l 1725461487757307719279980 l)) 1725541623568690444004453 (n (n l 1730263990049447015183736 l) 1730263990054858808455022 (n l 1730263990054905868412274 l))) 1730263990054918652781938 (n (n (n l 1739628012879251784892531 l) 1739628519257519927948645 (n l 1739886408882982061499762 l)) 1739886773393076900881778 (n (n l 1739941129900589377222008 l) 1739941129900658030175077 (n l 1739941129900662325802085 l)))) 1739941820617102733634917 (n (n (n (n l 1739941820891322250454386 l) 1739941825406575384228453 (n l 1739941825676396854732146 l)) 1744719095936726108300389 (n (n l 1749153455979787380286834 l) 1749153455979795969828210 (n l 1749153455981986268931442 l))) 1749153455981999338841458 (n (n (n l 1749153455985297973929330 l) 1749153455986337255089518 (n l 1749153455986423154435442 l)) 1749153455999565787657592 (n (n l 1749153455999591674835557 l) 1749153455999617294688628 (n l 1749153456000630738676082 l))))) 1749153456000665115782245 (n (n (n (n (n l 1749153456002915829508454 l) 1753831528188139780860271 (n l 1753875822474721488038246 l)) 1753875822476903615657330 (n (n l 1753875822480287798813541 l) 1754163685237299919086962 (n l 1754237904109136388450661 l))) 1758646128391395153570149 (n (n (n l 1758775731093674865553012 l) 1768042921918949557103717 (n l 432552267160815417644901746 l)) 432552267805787516427136628 (n (n l 432552268381011199586759269 l) 433276174896287173043185010 (n l 434485100718716551984996716 l)))) 441738655638093176893305445 (n (n (n (n l 452618988010965664768745836 l) 452618988012935989605590386 (n l 452618988014624839465853294 l)) 109680760734884711964334449509 (n (n l 109990245744994287409144422764 l) 110299730754890388154961979762 (n l 110733380558281604244118269556 l))) 110733380596301243382588663154 (n (n (n l 110733380632327507126761908581 l) 110933931790954667007653669221 (n l 111228185784065633774671786597 l)) 114013550872383542926716855666 (n (n l 114632520891670054291270428018 l) 114939103031337370513501741428 (n l 114942005901058490845814351218 l)))))))
def tFrench111 : T := n tFrench1110 1683040325221781371777637 tFrench1111
def tFrench11 : T := n tFrench110 6555612555165213224549 tFrench111
def tFrench1 : T := n tFrench10 26258632770623730277 tFrench11
def tFrench : T := n tFrench0 102845493526487413 tFrench1

def tItalian0000 : T := (n (n (n (n (n (n (n (n l 5928874597 l) 5929460335 l) 5929460581 (n l 5929461345 l)) 5929591649 (n (n l 5929594479 l) 5929597545 (n l 5929855329 l))) 5929857903 (n (n (n l 5929923429 l) 5929923681 (n l 5945516911 l)) 5945521761 (n (n l 5945782885 l) 5945783393 (n l 5946041193 l)))) 5946042209 (n (n (n (n l 5946827617 l) 5946829167 (n l 5962296933 l)) 5962298223 (n (n l 5962559073 l) 5962560623 (n l 5962817903 l))) 5963214177 (n (n (n l 5979071599 l) 5979599461 (n l 5979599983 l)) 5979991663 (n (n l 5979993189 l) 5980384865 (n l 5995979631 l))))) 5996244073 (n (n (n (n (n l 5996572015 l) 5996573537 (n l 5996962401 l)) 5996965733 (n (n l 5997028193 l) 5997032303 (n l 5997098095 l))) 6012629605 (n (n (n l 6012630127 l) 6012888165 (n l 6013150817 l)) 6013152367 (n (n l 6013547119 l) 6013939301 (n l 6013940591 l)))) 6029665135 (n (n (n (n l 6029667941 l) 6030322790 (n l 6030714479 l)) 6063157857 (n (n l 6113290095 l) 6113556065 (n l 6113813615 l))) 6113817185 (n (n (n l 6113817701 l) 6114206821 (n l 6114210927 l)) 6114599781 (n (n l 6114603119 l) 6130069089 (n l 6130329441 l)))))) 6130331247 (n (n (n (n (n (n l 6130332517 l) 6130590561 (n l 6130593385 l)) 6130986085 (n (n l 6130987617 l) 6131381089 (n l 6131381359 l))) 6147110501 (n (n (n l 6147761263 l) 6147763557 (n l 6163624809 l)) 6163755617 (n (n l 6164014953 l) 6164477025 (n l 6164737377 l)))) 6164740719 (n (n (n (n l 6164804449 l) 6164804709 (n l 6164869733 l)) 6165260655 (n (n l 6180397925 l) 6180398945 (n l 6180400239 l))) 6180401769 (n (n (n l 6180663397 l) 6180664175 (n l 6180924513 l)) 6181319521 (n (n l 6181712495 l) 6213954927 (n l 6213956705 l))))) 6214218593 (n (n (n (n (n l 6214218853 l) 6214480751 (n l 6214481505 l)) 6214869601 (n (n l 6214869871 l) 6215264097 (n l 6215266405 l))) 6230994277 (n (n (n l 6231256687 l) 6231649391 (n l 6231714145 l)) 6232041327 (n (n l 6247509093 l) 6247510625 (n l 6247768929 l)))) 6247773033 (n (n (n (n l 6248034927 l) 6248426863 (n l 6248622447 l)) 6248821857 (n (n l 6264612449 l) 6265140325 (n l 6265206383 l))) 6265400431 (n (n (n l 6281064047 l) 6281327215 (n l 6281587813 l)) 6281589857 (n (n l 6281978725 l) 6281979745 (n l 6348434543 l)))))))
def tItalian0001 : T := (n (n (n (n (n (n (n l 1517774005103 l) 1517774271589 (n l 1517791306863 l)) 1517791835489 (n (n l 1517792097391 l) 1517808087141 (n l 1517842035567 l))) 1517857896037 (n (n (n l 1517858419301 l) 1517941781615 (n l 1517942301289 l)) 1517958816353 (n (n l 1517959078767 l) 1517959475813 (n l 1517959539055 l)))) 1517975858529 (n (n (n (n l 1518009803877 l) 1518059744879 (n l 1518060137569 l)) 1518060204655 (n (n l 1518076915311 l) 1518109815397 (n l 1518177580143 l))) 1522052723809 (n (n (n l 1522052916335 l) 1522053309281 (n l 1522053378927 l)) 1522053508197 (n (n l 1522119435119 l) 1522119632481 (n l 1522120029793 l))))) 1522120156257 (n (n (n (n (n l 1522187199087 l) 1522187530849 (n l 1522288190575 l)) 1522288255855 (n (n l 1522337410401 l) 1522338325615 (n l 1522338721391 l))) 1522388460143 (n (n (n l 1522388659823 l) 1522388923489 (n l 1526347885935 l)) 1526348149345 (n (n l 1526348276847 l) 1526348477551 (n l 1526415389807 l)))) 1526415454319 (n (n (n (n l 1526464867425 l) 1526465130081 (n l 1526481776239 l)) 1526482494305 (n (n l 1526532633199 l) 1526582174575 (n l 1526582770273 l))) 1526583160943 (n (n (n l 1526632641633 l) 1526632903529 (n l 1526633292645 l)) 1526683825775 (n (n l 1530642656879 l) 1530709634671 (n l 1530709963873 l)))))) 1530877406561 (n (n (n (n (n (n l 1530877731685 l) 1530927343471 (n l 1530978594159 l)) 1534953877103 (n (n l 1534987694689 l) 1534987955301 (n l 1535122170721 l))) 1535122961263 (n (n (n l 1535138951791 l) 1535139736687 (n l 1535222572133 l)) 1535239089509 (n (n l 1535239615599 l) 1535240008559 (n l 1535289422703 l)))) 1539232785263 (n (n (n (n l 1539232917359 l) 1539299897441 (n l 1539300291183 l)) 1539300422753 (n (n l 1539300484207 l) 1539366281825 (n l 1539367203429 l))) 1539367595365 (n (n (n l 1539416875631 l) 1539467798881 (n l 1539468129135 l)) 1539517279841 (n (n l 1539517802351 l) 1539568334447 (n l 1539568526191 l))))) 1539568722543 (n (n (n (n (n l 1543527360101 l) 1543527820641 (n l 1543528145519 l)) 1543528281199 (n (n l 1543594865519 l) 1543595255663 (n l 1543645000545 l))) 1543661970529 (n (n (n l 1543662171749 l) 1543746055535 (n l 1543761977953 l)) 1543762767457 (n (n l 1543812244591 l) 1543812506465 (n l 1543862577519 l)))) 1552151440993 (n (n (n (n l 1552168217711 l) 1552301519461 (n l 1552335268193 l)) 1552402703461 (n (n l 1565001999201 l) 1565002657903 (n l 1565002983265 l))) 1565069763183 (n (n (n l 1565069834849 l) 1565069897317 (n l 1565069963877 l)) 1565070161007 (n (n l 1565136809057 l) 1565137265505 (n l 1565338265455 l)))))))
def tItalian000 : T := n tItalian0000 6349483125 tItalian0001
def tItalian0010 : T := (n (n (n (n (n (n (n l 1565338661999 l) 1569297232495 (n l 1569297560687 l)) 1569297821793 (n (n l 1569297952111 l) 1569364666739 (n l 1569365060719 l))) 1569431317605 (n (n (n l 1569432237167 l) 1569432302177 (n l 1569532111215 l)) 1569532568431 (n (n l 1569532965999 l) 1569533360751 (n l 1569632510817 l)))) 1569632708193 (n (n (n (n l 1569633236079 l) 1573592134753 (n l 1573660030575 l)) 1573726873185 (n (n l 1573928070241 l) 1573928269423 (n l 1577904269679 l))) 1577904467055 (n (n (n l 1578071848545 l) 1578072568421 (n l 1578088165985 l)) 1578088359777 (n (n l 1578105139813 l) 1578105398117 (n l 1578171983471 l))))) 1578188763749 (n (n (n (n (n l 1578206065765 l) 1578239093861 (n l 1578239357812 l)) 1578239618671 (n (n l 1582182003557 l) 1582182657135 (n l 1582249963119 l))) 1582250490479 (n (n (n l 1582316218209 l) 1582316352111 (n l 1582316809825 l)) 1582417343343 (n (n l 1582417474661 l) 1582417736293 (n l 1582467476833 l)))) 1582467872353 (n (n (n (n l 1582517677679 l) 1582518002533 (n l 1586812253033 l)) 1586813170785 (n (n l 1590772067951 l) 1590838783077 (n l 1590839635553 l))) 1590906020719 (n (n (n l 1591007735919 l) 1591108136047 (n l 1595067364975 l)) 1595067757679 (n (n l 1595068017007 l) 1595100195937 (n l 1595101508207 l)))))) 1595134471265 (n (n (n (n (n (n l 1595134604143 l) 1595134863727 (n l 1595150791265 l)) 1595151049825 (n (n l 1595151443823 l) 1595151840111 (n l 1595201252449 l))) 1595202039137 (n (n (n l 1595285660783 l) 1595301916271 (n l 1595302309217 l)) 1595302372449 (n (n l 1595302507105 l) 1595302638447 (n l 1595302704225 l)))) 1595318297697 (n (n (n (n l 1595319219055 l) 1595385670767 (n l 1595385933153 l)) 1595386717807 (n (n l 1599362790511 l) 1599363250785 (n l 1599429505135 l))) 1599429832037 (n (n (n l 1599429964399 l) 1599496680559 (n l 1599497464175 l)) 1599597212783 (n (n l 1599597340271 l) 1599597473889 (n l 1599597601377 l))))) 1599646824037 (n (n (n (n (n l 1599647739503 l) 1603707433573 (n l 1603857903215 l)) 1603858426981 (n (n l 1603909546081 l) 1603958568047 (n l 1607952263023 l))) 1607952720737 (n (n (n l 1608019506287 l) 1608086678625 (n l 1608086941807 l)) 1608187146341 (n (n l 1625132265057 l) 1625266479983 (n l 1625266877551 l)))) 1625367014497 (n (n (n (n l 1625467940961 l) 388550280573807 (n l 388558735501679 l)) 388558786358629 (n (n l 388571687973989 l) 388571957197423 (n l 388593112935781 l))) 388593296436847 (n (n (n l 388593346503521 l) 388593431244399 (n l 388593514279525 l)) 388597407118447 (n (n l 388601686028897 l) 388601719255649 (n l 388601735115365 l)))))))
def tItalian0011 : T := (n (n (n (n (n (n (n l 388601752611951 l) 388601785707631 (n l 388610560453733 l)) 388618866293359 (n (n l 388618915509359 l) 388618965839461 (n l 388618966627439 l))) 388619083019109 (n (n (n l 388623227712361 l) 388623478907749 (n l 388627773616993 l)) 388636397368175 (n (n l 388653359525477 l) 388653644344687 (n l 389645378874469 l)))) 389645395914351 (n (n (n (n l 389645546647137 l) 389645715075937 (n l 389662726646127 l)) 389679738877025 (n (n l 389679772823141 l) 389679805981807 (n l 389679973491813 l))) 389692607325295 (n (n (n l 389692607722593 l) 389718377128801 (n l 389718445029985 l)) 389718712544367 (n (n l 389731312037487 l) 390744925102959 (n l 390745075706977 l))))) 390745091567713 (n (n (n (n (n l 390745092091503 l) 390745125118821 (n l 390745192492641 l)) 390762137218159 (n (n l 390762272353893 l) 390762339855717 (n l 390762356238689 l))) 390775072453231 (n (n (n l 390775072580449 l) 390779569071727 (n l 390779586047077 l)) 390805053858661 (n (n l 390805188473445 l) 390805204595809 (n l 390805205247087 l)))) 390805205642853 (n (n (n (n l 390805255645537 l) 390805289396577 (n l 390805355328623 l)) 390817955017839 (n (n l 390818224628577 l) 390830806889061 (n l 390830807673967 l))) 390830873996911 (n (n (n l 390831025384545 l) 391844703859823 (n l 391861599040367 l)) 391861784310383 (n (n l 391861851088737 l) 391861918200943 (n l 391878812136047 l)))))) 391878828979055 (n (n (n (n (n (n l 391878997404783 l) 391879031353455 (n l 391879097151087 l)) 391904715961455 (n (n l 391904868267119 l) 391917735601263 (n l 391930301278575 l))) 391930317991013 (n (n (n l 392991209714799 l) 392991225766767 (n l 392995504616303 l)) 392999782937199 (n (n l 392999815181161 l) 393000151248225 (n l 393008574198373 l)))) 393016912275823 (n (n (n (n l 393016928858991 l) 393021525160815 (n l 393025719722863 l)) 393030082195553 (n (n l 393034443880033 l) 394043626450021 (n l 394043710466401 l))) 394060605059685 (n (n (n l 394060622687329 l) 394060688880751 (n l 394060774011503 l)) 394077986714213 (n (n l 394078070596463 l) 394090720882017 (n l 394090989449839 l))))) 394103555187567 (n (n (n (n (n l 394103572362095 l) 394103639271791 (n l 394103722439777 l)) 394116491076463 (n (n l 394116658521189 l) 394116759581793 (n l 394129342425441 l))) 394129509938031 (n (n (n l 394129593823845 l) 394129626983525 (n l 395143255714159 l)) 395143339663983 (n (n l 395177280433263 l) 395177515708015 (n l 395177564927087 l)))) 395177565843045 (n (n (n (n l 395177616438383 l) 395203251369071 (n l 395203267946863 l)) 395215935204719 (n (n l 395215935267941 l) 395215936055649 (n l 395216001918821 l))) 395216069028207 (n (n (n l 395216069491297 l) 395216170546273 (n l 395216270946415 l)) 395228820173935 (n (n l 397355113866095 l) 397367847513701 (n l 397367931138671 l)))))))
def tItalian001 : T := n tItalian0010 388601736226145 tItalian0011
def tItalian00 : T := n tItalian000 1565338596207 tItalian001
def tItalian0100 : T := (n (n (n (n (n (n (n l 397393500927087 l) 397393684164197 (n l 397393734759535 l)) 397397812666991 (n (n l 397397829053541 l) 397398079794799 (n l 397398096835183 l))) 397398130385765 (n (n (n l 397398130652271 l) 397406619919201 (n l 397423548328289 l)) 400640494957167 (n (n l 400640512978529 l) 400640781349473 (n l 400640797404783 l)))) 400640831353455 (n (n (n (n l 400657758645349 l) 400657960498799 (n l 400674854892143 l)) 400675056350561 (n (n l 400675123585889 l) 400675191285089 (n l 400700708840289 l))) 400700825956961 (n (n (n l 400726578783073 l) 401740023558767 (n l 401740040072545 l)) 401740090925935 (n (n l 401740091124065 l) 401740207974753 (n l 401740309820015 l))))) 401757489292399 (n (n (n (n (n l 401774534028911 l) 401774534554725 (n l 401774551724897 l)) 401774568501861 (n (n l 401774635216495 l) 401800170925167 (n l 401800219946607 l))) 401800337910885 (n (n (n l 401800422519407 l) 401825923560289 (n l 401826091198817 l)) 401826174299237 (n (n l 401826191598433 l) 402839787103077 (n l 402874180396143 l)))) 402899648212069 (n (n (n (n l 402899664991855 l) 402899832761953 (n l 402899949679205 l)) 402925434987887 (n (n l 402925602304623 l) 402925753953377 (n l 403947636943215 l))) 403965002215023 (n (n (n l 403986391856239 l) 403994898821999 (n l 404012078296677 l)) 404012111326831 (n (n l 404012346729313 l) 404012446872673 (n l 404016524653417 l)))))) 404016574592101 (n (n (n (n (n (n l 404020936666479 l) 405038625812065 (n l 405038710482021 l)) 405038810100325 (n (n l 405038810754145 l) 405038877863525 (n l 405055805548911 l))) 405055889961839 (n (n (n l 405055922598501 l) 405055956677729 (n l 405056023260271 l)) 405072885216353 (n (n l 405072952717921 l) 405073069831265 (n l 405073102730337 l)))) 405073103383663 (n (n (n (n l 405073120027247 l) 405073170101349 (n l 405073204047461 l)) 405085770444129 (n (n l 405098722453857 l) 405098856014693 (n l 405098940298095 l))) 405098973196901 (n (n (n l 405111539923567 l) 405111540249449 (n l 405111875006049 l)) 405115968383077 (n (n l 405124474823521 l) 405124609045615 (n l 406223935795823 l))))) 407237799539823 (n (n (n (n (n l 407237800062561 l) 407254829329505 (n l 407254929076837 l)) 407254929994863 (n (n l 407255047040609 l) 407272008282725 (n l 407272209609825 l))) 407272327966049 (n (n (n l 407297711106401 l) 407297728016997 (n l 407297778611311 l)) 407297862691183 (n (n l 407297897163119 l) 407297997499489 (n l 407323649076837 l)))) 408337076286575 (n (n (n (n l 408337161088353 l) 408337244974693 (n l 408337245369455 l)) 408337311429221 (n (n l 408337311687791 l) 408337378800225 (n l 408337411829345 l))) 408341355199087 (n (n (n l 408341355590241 l) 408345650557807 (n l 408345717273711 l)) 408345767142497 (n (n l 408345784643695 l) 408345885439073 (n l 408345935176289 l)))))))
def tItalian0101 : T := (n (n (n (n (n (n (n l 408354289708655 l) 408354441687653 (n l 408354524591201 l)) 408354524851823 (n (n l 408354559061089 l) 408358669412197 (n l 408371436547183 l))) 408371487470177 (n (n (n l 408384439612513 l) 408388734057071 (n l 408397206940015 l)) 408397239381093 (n (n l 408397374121071 l) 408397441233509 (n l 408401484737633 l)))) 408401551255909 (n (n (n (n l 408418664014703 l) 408418664212065 (n l 408418731978849 l)) 408418732112495 (n (n l 408418799218789 l) 408423010103909 (n l 408423278932577 l))) 408427322567009 (n (n (n l 408427389219937 l) 408427489424481 (n l 409453953643631 l)) 409453969371759 (n (n l 409471014761061 l) 409471132267119 (n l 409471183053679 l))))) 409471250558063 (n (n (n (n (n l 409497019444847 l) 409509586694757 (n l 409509720517743 l)) 409509821244001 (n (n l 409509821444207 l) 409522789510241 (n l 410562188110949 l))) 410583462802277 (n (n (n l 410592018264677 l) 410613393029729 (n l 410613426254959 l)) 410617923004769 (n (n l 411635779461999 l) 411635846967909 (n l 411635879603823 l)))) 411652825511521 (n (n (n (n l 411652825904239 l) 411652958941807 (n l 411652959333985 l)) 411652959724389 (n (n l 411652992365679 l) 411653059470181 (n l 411670055711333 l))) 411670155980393 (n (n (n l 411670206050913 l) 411670257431137 (n l 411670306972783 l)) 411695908745829 (n (n l 416050905182831 l) 416094089732975 (n l 416119625051247 l)))))) 99468897478603365 (n (n (n (n (n (n l 99469945333509743 l) 99469954175168101 (n l 99469966875323493 l)) 99471053652849253 (n (n l 99471122271138405 l) 99473256753689711 (n l 99473256820732783 l))) 99474352255233125 (n (n (n l 99474369400631909 l) 99479836576477807 (n l 99479858117243489 l)) 99479866640856165 (n (n l 99479879592407663 l) 99479879659386479 (n l 99479892510731887 l)))) 99479913952865903 (n (n (n (n l 99479914170775141 l) 99479922542603375 (n l 99480932010521697 l)) 99480932077366881 (n (n l 99480936372073583 l) 99480949257495393 (n l 99480983332680559 l))) 99480983399457889 (n (n (n l 99481017876051055 l) 99482039961283681 (n l 99482057410049135 l)) 99482091651689839 (n (n l 99484230646063983 l) 99484295037412463 (n l 99484295087682671 l))))) 99486429367329633 (n (n (n (n (n l 99486429568264559 l) 99486429670109793 (n l 99486433780462191 l)) 99486446748527717 (n (n l 99486455187797103 l) 99486481125370209 (n l 99486502499542881 l))) 99486502600537199 (n (n (n l 99486536859151471 l) 99487537687196783 (n l 99487550337217647 l)) 99487606507725935 (n (n l 99488628726129519 l) 99488645688552815 (n l 99488688704676719 l)))) 99488710213660271 (n (n (n (n l 99488710263403631 l) 99488710313208933 (n l 99489805329262959 l)) 99489805514205537 (n (n l 99489809624691809 l) 99489809825689199 (n l 99495333153895023 l))) 99749221252558447 (n (n (n l 99749225582261089 l) 99749238616978543 (n l 99749259908181605 l)) 99749260058260577 (n (n l 99749260293140079 l) 99749264185978479 (n l 99749268514501221 l)))))))
def tItalian010 : T := n tItalian0100 408345985903713 tItalian0101
def tItalian0110 : T := (n (n (n (n (n (n (n l 99749285829373285 l) 99749285878522735 (n l 99749294469510241 l)) 99749294553527407 (n (n l 99753666644766319 l) 99753666930110049 (n l 99753683875098209 l))) 99758069037098863 (n (n (n l 99758086099793007 l) 99758086267237477 (n l 99758086351581801 l)) 99764653221573743 (n (n l 99764687715528303 l) 99764713586388079 (n l 99767904360425839 l)))) 99767904377598063 (n (n (n (n l 99767904680374881 l) 99767938787862881 (n l 99771207174286949 l)) 99771224421264997 (n (n l 99771276061535845 l) 99771280473943137 (n l 100030700559037551 l))) 100030734884891759 (n (n (n l 100030734918710117 l) 100030734984704623 (n l 100030735086414177 l)) 100030739163476833 (n (n l 100030739279735137 l) 100030739347238511 (n l 100030739397045349 l))))) 100030743490948193 (n (n (n (n (n l 100030743676482671 l) 100030743759646305 (n l 100030752098118767 l)) 100030752282210927 (n (n l 100030752333589601 l) 100030760755621217 (n l 100030764948747361 l))) 100030764983414113 (n (n (n l 100030765218098789 l) 100030765250735205 (n l 100030769211339873 l)) 100030769495371109 (n (n l 100030777935031407 l) 100035098822407265 (n l 100035132964106853 l)))) 100035158700290661 (n (n (n (n l 100038418748502625 l) 100039505458852453 (n l 100039556999377769 l)) 100039565588915055 (n (n l 100039573961471073 l) 100042816812049249 (n l 100046093654582383 l))) 100046106757393765 (n (n (n l 100046128197759589 l) 100046128214537327 (n l 100046128265786223 l)) 100046136637223791 (n (n l 100046136738670437 l) 100046136906444143 (n l 100046145261302895 l)))))) 100046145328213605 (n (n (n (n (n (n l 100046153784654433 l) 100046153833346145 (n l 100046154001638245 l)) 100046154018614369 (n (n l 100046154068485231 l) 100046154102043493 (n l 100046158279828335 l))) 100046162693026401 (n (n (n l 100049379622482533 l) 100049396533916261 (n l 100049396685566831 l)) 100049413697008751 (n (n l 100049413881293925 l) 100049413982479215 (n l 100049439651095393 l)))) 100052725267526767 (n (n (n (n l 100052751155688037 l) 100052755181825647 (n l 100052755467428965 l)) 100312210028459105 (n (n l 100312218551544929 l) 100312218636088175 (n l 100312218836496997 l))) 100312252777657449 (n (n (n l 100312253129388655 l) 100316565260760175 (n l 100316569404010095 l)) 100316569454537839 (n (n l 100316569504412783 l) 100316582339833189 (n l 100316607958052463 l))))) 100316608008972655 (n (n (n (n (n l 100316612236573281 l) 100316638006637679 (n l 100320980235547503 l)) 100321006257072495 (n (n l 100321023235093615 l) 100321023285488993 (n l 100321031926084719 l))) 100321035985316207 (n (n (n l 100321036068811365 l) 100321036085849199 (n l 100321048937657455 l)) 100327560225713765 (n (n l 100327564403176549 l) 100327611631103087 (n l 100327628961575525 l)))) 100327637669343845 (n (n (n (n l 100327663539416673 l) 100334217424626533 (n l 100595845240681327 l)) 100595883962495849 (n (n l 100596970488294497 l) 100597022026986085 (n l 100600294893907311 l))) 100600307710912879 (n (n (n l 100605749719298661 l) 100606831916840047 (n l 100606836178513249 l)) 100606892147570287 (n (n l 100607948675836257 l) 100607991658931041 (n l 100608013099954789 l)))))))
def tItalian0111 : T := (n (n (n (n (n (n (n l 100610164778821487 l) 100610190396714085 (n l 100612346638595169 l)) 100612363717538405 (n (n l 100612389688931951 l) 100612402272171109 (n l 100613428870082159 l))) 100613428987129189 (n (n (n l 100613446150678895 l) 100613463145542767 (n l 100613488981927791 l)) 100613493193864047 (n (n l 100613506145876577 l) 100613510608611681 (n l 100613510659011439 l)))) 100614562824938351 (n (n (n (n l 100614601631294319 l) 100616761981891695 (n l 100616787618788463 l)) 100875121243812463 (n (n l 100875168454373985 l) 100875185751679855 (n l 100875190165009263 l))) 100875190181588079 (n (n (n l 100879562323881569 l) 100879566467592805 (n l 100879583916158053 l)) 100879588195136097 (n (n l 100879588211127919 l) 100883921849510241 (n l 100883964464364129 l))))) 100883985971899493 (n (n (n (n (n l 100887207198289509 l) 100887267579094127 (n l 100887293131125861 l)) 100890553044922981 (n (n l 100890561852042849 l) 100890578730447983 (n l 100890578781434977 l))) 100890578914992993 (n (n (n l 100890578931247471 l) 100890579132576357 (n l 100890583091999855 l)) 100893821631558753 (n (n l 100893890233592933 l) 100897150214958693 (n l 100897154308928613 l)))) 100897154376430703 (n (n (n (n l 100897175884492389 l) 101156634758505839 (n l 101156634942336609 l)) 101156634993127535 (n (n l 101156639069270639 l) 101156660947414629 (n l 101156665057634671 l))) 101161037166570607 (n (n (n l 101161037300069487 l) 101161041611811183 (n l 101165439508312687 l)) 101165443768742501 (n (n l 101165465528792161 l) 101165469790205039 (n l 101168742288157807 l)))))) 101168768359165541 (n (n (n (n (n (n l 101172032417263205 l) 101172070937947759 (n l 101175279244373093 l)) 101175279294702447 (n (n l 101175279563535215 l) 101175313654836837 (n l 101178612155249253 l))) 101722870545934703 (n (n (n l 101732735901265007 l) 101732736135553903 (n l 101732783213409135 l)) 101732796030215023 (n (n l 101732796164564847 l) 101732796266083439 (n l 101733831301755493 l)))) 101733839707993199 (n (n (n (n l 101733839825104495 l) 101733839893001071 (n l 101733848347931759 l)) 101733852593288297 (n (n l 101733856954510959 l) 101733857071821669 (n l 101733857123001455 l))) 101733887020065647 (n (n (n l 101733891297997413 l) 101733908494972015 (n l 101733908561096037 l)) 101733913057653871 (n (n l 101736090589033321 l) 101738276409205857 (n l 101738289511883631 l))))) 101739388989437039 (n (n (n (n (n l 101739389124571247 l) 101739410565456741 (n l 101740445652054629 l)) 102563971271847265 (n (n l 102563975332329061 l) 102564035461870447 (n l 102564035545687909 l))) 102564044068518497 (n (n (n l 102564044320630625 l) 102564052590882401 (n l 102568386313417327 l)) 102568438054089839 (n (n l 102572776021914735 l) 102572810280985711 (n l 102572814390882917 l)))) 102572827544740975 (n (n (n (n l 102572840228186479 l) 102579364149748833 (n l 102579407115350629 l)) 102579411494467183 (n (n l 102579424613983077 l) 102579428641372783 (n l 102586017305816175 l))) 102586030073210721 (n (n (n l 102845445962887791 l) 102845463361057893 (n l 102845484919516783 l)) 102845493425566319 (n (n l 102845493443719777 l) 102845493526750309 (n l 102845510421410405 l)))))))
def tItalian011 : T := n tItalian0110 100610130552910949 tItalian0111
def tItalian01 : T := n tItalian010 99749285660291695 tItalian011
def tItalian0 : T := n tItalian00 397389372683119 tItalian01
def tItalian1000 : T := (n (n (n (n (n (n (n l 102845514984286561 l) 102845515001589359 (n l 102845519296949861 l)) 102845545083724641 (n (n l 102849835637699183 l) 102849882665218913 (n l 102849882899114337 l))) 102849891389040485 (n (n (n l 102849891556879457 l) 102849908501800033 (n l 102849913031062117 l)) 102849913048493167 (n (n l 102849917024496751 l) 102849917342806629 (n l 102854242123671919 l)))) 102854242173545573 (n (n (n (n l 102854242341970543 l) 102854246586412143 (n l 102854310809136225 l)) 102854311077836385 (n (n l 102854315139037793 l) 102860843488406639 (n l 102860878016377711 l))) 102860886421106273 (n (n (n l 102860886673157733 l) 102860886689018991 (n l 102860886723097455 l)) 102860903600714341 (n (n l 102860920797952609 l) 102867453593348463 (n l 102867474851329135 l))))) 102867488087568997 (n (n (n (n (n l 102867504949324911 l) 103126916644627055 (n l 103126985398121327 l)) 103126985649255535 (n (n l 103126989692826213 l) 103126998568231777 (n l 103131319272174441 l))) 103131336402430319 (n (n (n l 103131362137304687 l) 103131370610062433 (n l 103131383478908015 l)) 103131388008820335 (n (n l 103131392320564847 l) 103135717066565985 (n l 103142378577683311 l)))) 103142378728156261 (n (n (n (n l 103142387252619617 l) 103142395774528609 (n l 103148984472269413 l)) 103149010090552421 (n (n l 103409491317974895 l) 103410672433460335 (n l 103411720289152623 l))) 103411746275947109 (n (n (n l 103413906427507809 l) 103413906645021285 (n l 103415010234233967 l)) 103420503430296687 (n (n l 103421581566896495 l) 103424897465807983 (n l 103424944661296239 l)))))) 103427079058451567 (n (n (n (n (n (n l 103427096288256869 l) 103427113484906085 (n l 103427152106382447 l)) 103429359886561893 (n (n l 103431511681888879 l) 103431537234113647 (n l 103431563188991333 l))) 103431567399023205 (n (n (n l 103689875255749729 l) 103689875474050661 (n l 103689909732729967 l)) 103689918188843631 (n (n l 103689927013262177 l) 103689935419042927 (n l 103689935502013551 l)))) 103689935636755045 (n (n (n (n l 103689939914946159 l) 103689943907525473 (n l 103689944227474789 l)) 103694268973020271 (n (n l 103694316234957669 l) 103694316403520623 (n l 103694316486095461 l))) 103694316503788641 (n (n (n l 103694333381013093 l) 103694333499106415 (n l 103694333716296559 l)) 103694337794339937 (n (n l 103694342273199717 l) 103698658429858405 (n l 103698667020054127 l))))) 103698667222497889 (n (n (n (n (n l 103698679955026543 l) 103698684300062049 (n l 103698684401445231 l)) 103698705826147425 (n (n l 103698718626638177 l) 103698766190175087 (n l 103701956964737647 l))) 103701957149028965 (n (n (n l 103701957249691247 l) 103705268486106479 (n l 103705302778410081 l)) 103705302895518565 (n (n l 103705303063032421 l) 103705328564659311 (n l 103705328732828257 l)))) 103705328799020129 (n (n (n (n l 103708554319979361 l) 103708571231413089 (n l 103708571382149733 l)) 103708588712752239 (n (n l 103708614165099105 l) 103708614215429487 (n l 103708614349253989 l))) 103708614416361313 (n (n (n l 103708614449263471 l) 103708640185775215 (n l 103711908688917093 l)) 103711916961725039 (n (n l 103711917095021665 l) 103993344977628257 (n l 104252833815683937 l)))))))
def tItalian1001 : T := (n (n (n (n (n (n (n l 104252838161378917 l) 104252863797162607 (n l 104252863931115375 l)) 104252889633813605 (n (n l 104257219027956847 l) 104257219078747233 (n l 104257223238710383 l))) 104257274912531297 (n (n (n l 104261612712258661 l) 104261617175389295 (n l 104261621571023461 l)) 104261630060293473 (n (n l 104261630160234863 l) 104261659956373871 (n l 104261664217592431 l)))) 104261664403060335 (n (n (n (n l 104261672908451439 l) 104261673059447649 (n l 104261685692885359 l)) 104261685727098465 (n (n l 104261685978559087 l) 104261689954952303 (n l 104261690021342831 l))) 104261690155688815 (n (n (n l 104261690239972975 l) 104261698611999599 (n l 104261698779378799 l)) 104268210050921583 (n (n l 104268257210757733 l) 104268287024460901 (n l 104268287259337839 l))))) 104274806919821935 (n (n (n (n (n l 104274807069696865 l) 104274849918709359 (n l 104274880100397669 l)) 104274880117695343 (n (n l 104534334478971759 l) 104534334680034917 (n l 104534334796558949 l))) 104534364845470575 (n (n (n l 104534369073130607 l) 104534369174187631 (n l 104534394741552239 l)) 104535387097100901 (n (n l 104536486508981345 l) 104536486608729199 (n l 104536503654900591 l)))) 104536503756288623 (n (n (n (n l 104536516455657057 l) 104536520617259105 (n l 104536520684108385 l)) 104536520969383023 (n (n l 104536572457742949 l) 104538694105326703 (n l 104538711385535599 l))) 104538741433528933 (n (n (n l 104538749939774575 l) 104538758310884463 (n l 104538758646952549 l)) 104538762908364385 (n (n l 104539784825105519 l) 104539784992617583 (n l 104539819335578735 l)))))) 104539844954387567 (n (n (n (n (n (n l 104539857806980207 l) 104539870891962981 (n l 104540944717736303 l)) 104540970203374703 (n (n l 104543091950579045 l) 104543109314998885 (n l 104543130755359329 l))) 104543134883474543 (n (n (n l 104543139262327919 l) 104543139479778153 (n l 104543147751795055 l)) 104543160955268197 (n (n l 104543165266097263 l) 104546442343181935 (n l 104549689120091237 l)))) 104549727690912879 (n (n (n (n l 104549727708540517 l) 104549736298869871 (n l 104549745072370543 l)) 104549753511309925 (n (n l 104549753696121711 l) 104549757957534319 (n l 104549762319608933 l))) 104550780227251297 (n (n (n l 104550797138293349 l) 104550814486328175 (n l 104550814552517733 l)) 104550852922861409 (n (n l 104550853259197039 l) 104551965453479023 (n l 104555177971379301 l))))) 104555178173426031 (n (n (n (n (n l 104555178256331361 l) 104555178274157679 (n l 104555212666137701 l)) 104555238301725807 (n (n l 104555238369354607 l) 104555250969505903 (n l 104555251305313391 l))) 104556286090113903 (n (n (n l 104556325029113455 l) 104556337813353061 (n l 104556341958435439 l)) 104557377077998181 (n (n l 104557394207798117 l) 104557394258585967 (n l 104557394341753445 l)))) 104557394376619119 (n (n (n (n l 104815766504956783 l) 104815814002044517 (n l 104815818263064175 l)) 104815835275163247 (n (n l 104815835324970095 l) 104815835358848609 (n l 104815835475964517 l))) 104815844133528431 (n (n (n l 104815852472397409 l) 104820169064932207 (n l 104820216142196325 l)) 104820220671389025 (n (n l 104820237884552303 l) 104820242180434273 (n l 104824584140516449 l)))))))
def tItalian100 : T := n tItalian1000 104252838027885167 tItalian1001
def tItalian1010 : T := (n (n (n (n (n (n (n l 104824666097413733 l) 104831163996140133 (n l 104831206929951841 l)) 104831219798796655 (n (n l 104831228605198949 l) 104831228673224293 (n l 104831228706779745 l))) 104831232715615855 (n (n (n l 104831232984576613 l) 104834453941544289 (n l 104834453991943265 l)) 104834454092212591 (n (n l 104834454159191663 l) 104834471121086817 (n l 104834488285361263 l)))) 104834488485504353 (n (n (n (n l 104834514389398117 l) 104837774001140847 (n l 104837804318291055 l)) 104837808412387681 (n (n l 104837825473639013 l) 105098371091493999 (n l 105099444867591279 l))) 105100570400487023 (n (n (n l 105102756353894767 l) 105111565500378735 (n l 105115928984907375 l)) 105115954722011745 (n (n l 105117114580429167 l) 105378720754070629 (n l 105378759408772961 l))))) 105378759761161313 (n (n (n (n (n l 105378763954549857 l) 105378768098521701 (n l 105378768350442081 l)) 105378785211282543 (n (n l 105383123163051105 l) 105383144604003439 (n l 105383157640295535 l))) 105383183241014373 (n (n (n l 105383183510758241 l) 105383187553280865 (n l 105383187837971557 l)) 105383192099909217 (n (n l 105383192150897775 l) 105387516914197601 (n l 105387534161045857 l)))) 105387534244476015 (n (n (n (n l 105387555685494383 l) 105387581372329057 (n l 105387585600189295 l)) 105387585700851301 (n (n l 105387585869018223 l) 105387589928512623 (n l 105387590179974497 l))) 105387598451467361 (n (n (n l 105387615764705893 l) 105400749674032751 (n l 106504676746294383 l)) 106504693993534049 (n (n l 106504702500434529 l) 106509057362130021 (n l 106509066370904687 l)))))) 106509083148381807 (n (n (n (n (n (n l 106513412526470255 l) 106513481212063333 (n l 25464023413592713583 l)) 25464023448069174383 (n (n l 25464041005979891311 l) 25464041065907582063 (n l 25464305988030263909 l))) 25464306074181006447 (n (n (n l 25464322515198894959 l) 25464322540800406625 (n l 25464588579665179759 l)) 25464589688084984943 (n (n l 25464600739019059813 l) 25465153711461985381 (n l 25465153784459981935 l)))) 25465163680199175521 (n (n (n (n l 25465166939977510511 l) 25465436286151256431 (n l 25465445137996017007 l)) 25465448414955138159 (n (n l 25465448466661864559 l) 25466837068042888289 (n l 25466838180723520623 l))) 25466839323084677999 (n (n (n l 25466841543717383781 l) 25466845911447401583 (n l 25466849158475379823 l)) 25466849218555505761 (n (n l 25466849244576577135 l) 25466853573904331365 (n l 25466857954652548705 l))))) 25466857988861159791 (n (n (n (n (n l 25467118586068823393 l) 25467123018509808737 (n l 25467131767508005477 l)) 25467131793211225199 (n (n l 25467135078776795749 l) 25467400022291276911 (n l 25467400039755245157 l))) 25467400061080269921 (n (n (n l 25467400086748686689 l) 25467406671084089957 (n l 25467414324631925349 l)) 25467414341761463407 (n (n l 25467414393468971375 l) 25467420938814976111 (n l 25467967435034686049 l)))) 25467979456613806693 (n (n (n (n l 25467979473827230831 l) 25467979516558666095 (n l 25468525922314970213 l)) 25468525939612939361 (n (n l 25468525960902566753 l) 25468528142830692719 (n l 25468544622534947951 l))) 25468545722214867823 (n (n (n l 25468546821592277861 l) 25468809622303569007 (n l 25468811868553962351 l)) 25468823915903153263 (n (n l 25468827179894139247 l) 25468827240108487791 (n l 25468828296703997039 l)))))))
def tItalian1011 : T := (n (n (n (n (n (n (n l 25469109788993483365 l) 25469391289606696303 (n l 25469651869767922799 l)) 25469674920656597605 (n (n l 25535801766120092769 l) 25535817124974322785 (n l 25535817159418015343 l))) 25535818258795029359 (n (n (n l 25536938644132031589 l) 25538062327700744545 (n l 25538064586669780079 l)) 25538066785843114597 (n (n l 25538068928848098405 l) 25538070032889967727 (n l 25538070080134213231 l)))) 25538077828020597359 (n (n (n (n l 25539753410810176367 l) 25539759973654422383 (n l 25540587987363720289 l)) 25540587995954181231 (n (n l 25540592359622931045 l) 25540598909432196207 (n l 25540598957062319713 l))) 25541446697288426337 (n (n (n l 25607868121908081263 l) 25607869238683464801 (n l 25607872554432687215 l)) 25607872579983995503 (n (n l 25607874719028175717 l) 25607874727367635809 (n l 25607874779258383969 l))))) 25607874791859319919 (n (n (n (n (n l 25607875818321832303 l) 25607875899960355951 (n l 25608985259897613413 l)) 25609000618885210977 (n (n l 25609000708945505391 l) 25609835165239308901 (n l 25609835221359945583 l))) 25609835229614338657 (n (n (n l 25610110073295826287 l) 25610119956098478703 (n l 25610123301979384943 l)) 25610952329434588015 (n (n l 25611801147881714789 l) 25611809922432787567 (n l 25611809935653627250 l)))) 25611810983625519717 (n (n (n (n l 25611810991947017569 l) 25611811026306823023 (n l 25611811052143408495 l)) 25611811060665773679 (n (n l 25611815402843763823 l) 25611816549567329381 (n l 25612641191878489185 l))) 25612645577072931937 (n (n (n l 25612656572473898081 l) 25612663100639636581 (n l 25613504218630419045 l)) 25679926832721915503 (n (n l 25681041737445697903 l) 25681042853951796335 (n l 25681045053160125551 l)))))) 25681051632932057701 (n (n (n (n (n (n l 25681053875123090543 l) 25681056074130093167 (n l 25681058212972950625 l)) 25681058247433351781 (n (n l 25681059398333854309 l) 25682165472538423919 (n l 25682167637334979173 l))) 25682172035465835109 (n (n (n l 25682172052678732901 l) 25682179714783470447 (n l 25682179770417052265 l)) 25682184112678466149 (n (n l 25682185221015172207 l) 25682185276800332911 (n l 25682185293744994913 l)))) 25682185298240433775 (n (n (n (n l 25682188545084977765 l) 25682188571089400943 (n l 25683860868078595173 l)) 25683867482328752993 (n (n l 25683867499508101733 l) 25685544254841123429 (n l 25685561812668740207 l))) 25752549614341155169 (n (n (n l 25752824518018230625 l) 25753664514836818273 (n l 25755067513014153829 l)) 25755071863715689573 (n (n l 25755071893813163119 l) 25755364415547338341 (n l 25755365442195121007 l))))) 25755633705768543087 (n (n (n (n (n l 25756202213442873711 l) 25756496805334315621 (n l 25756769501397476207 l)) 25757037850685698661 (n (n l 25757042235830531183 l) 25757046586666284133 (n l 25757046638456959589 l))) 25757053231231497327 (n (n (n l 25757054330492646255 l) 25757058690017489509 (n l 25757059802531459685 l)) 25757602961091224943 (n (n l 25757890998711515745 l) 25824029913284961121 (n l 25824031016873780321 l)))) 25824042037793286497 (n (n (n (n l 25824043184449351009 l) 25824047522365860961 (n l 25824047535469065071 l)) 25824049734306853477 (n (n l 25824051959251825519 l) 25825169063081766511 (n l 25825173452404716655 l))) 25826287292260643951 (n (n (n l 25826294920140583521 l) 25827125085544014703 (n l 25827971657923520865 l)) 25827972774866547823 (n (n l 25827981562269889125 l) 25827983765470606437 (n l 25827983770016899951 l)))))))
def tItalian101 : T := n tItalian1010 25468828352320402543 tItalian1011
def tItalian10 : T := n tItalian100 104824639908112751 tItalian101
def tItalian1100 : T := (n (n (n (n (n (n (n l 25828813892387828591 l) 25828813961408638575 (n l 25828813965468920943 l)) 25828829324389215855 (n (n l 25829660542294389857 l) 25829664931634377829 (n l 25829672709887323749 l))) 25896087507171372655 (n (n (n l 25896105095147972961 l) 25896105155141660271 (n l 25896106207560889455 l)) 25896106276329972591 (n (n l 25896113998463265889 l) 25897224398084599393 (n l 25897226631467987557 l)))) 25897226657237397615 (n (n (n (n l 25898061190539666543 l) 25898065524194240879 (n l 25898353630634601583 l)) 25898360206297557359 (n (n l 25900871559757787749 l) 25901715915650068079 (n l 25901715975829549669 l))) 26040487537562186863 (n (n (n l 26041050470436922223 l) 26041064768164687471 (n l 26041904795232597103 l)) 26043309970908865391 (n (n l 26043309996628079205 l) 26043580408072074351 (n l 26043592545480569967 l))))) 26043595856951538785 (n (n (n (n (n l 26043860839051653733 l) 26043860847927326319 (n l 26043862982425078127 l)) 26043862999689164399 (n (n l 26043863025375801967 l) 26043863038276364655 (n l 26043864064639725157 l))) 26043866298106081893 (n (n (n l 26043866310941897839 l) 26043867363174476143 (n l 26043867436323926895 l)) 26043876215051351151 (n (n l 26043880617561450849 l) 26043880643297373793 (n l 26043881657026573423 l)))) 26043881717072225135 (n (n (n (n l 26043883855932908655 l) 26044428187035724901 (n l 26044438070057067375 l)) 26045005392068572271 (n (n l 26045005418022924901 l) 26045289049073738607 (n l 26045289066287953007 l))) 26256376589908538479 (n (n (n l 26256388675729650785 l) 26256388748743962209 (n l 26257514648651332193 l)) 26257523397531628655 (n (n l 26258639367693496929 l) 26258639402051924581 (n l 26260335995487676769 l)))))) 26262006106387739759 (n (n (n (n (n (n l 26262017101672706927 l) 26328434175189282401 (n l 26328434201059226735 l)) 26328440823865762657 (n (n l 26328444062170178661 l) 26328444088141046895 (n l 26328444148187624037 l))) 26328446274230185057 (n (n (n l 26328446287013311077 l) 26328446338419811425 (n l 26328446347026524527 l)) 26328450659475484257 (n (n l 26328450736801737071 l) 26328451767375065697 (n l 26329560083786200165 l)))) 26329561183382236527 (n (n (n (n l 26329561200578359909 l) 26329576567989234031 (n l 26329577667282169455 l)) 26330690411721355877 (n (n l 26330698078388055141 l) 26330702540708801647 (n l 26330703644665672293 l))) 26330704692453143141 (n (n (n l 26330704739665081445 l) 26332375950111105889 (n l 26332386971232464495 l)) 26332393542565065839 (n (n l 26332393568284796769 l) 26334068094195233903 (n l 26334073643359825007 l))))) 26334082375246376037 (n (n (n (n (n l 26400509434594947685 l) 26400510538401541221 (n l 26400512685701359983 l)) 26401616646999339873 (n (n l 26401622058791958127 l) 26401637533525044325 (n l 26404450084268895855 l))) 26404451183831969391 (n (n (n l 26472829747253047909 l) 26472833075937239919 (n l 26472848482034349167 l)) 26475643436162970469 (n (n l 26475925972131079023 l) 26476220658595361391 (n l 26476778132247375461 l)))) 26477338827426456431 (n (n (n (n l 26477345441558522223 l) 26477346524108519023 (n l 26477347670780766575 l)) 26477350956212776037 (n (n l 26477353138258143585 l) 26477615990322590309 (n l 26477630215019392101 l))) 26477633530734146149 (n (n (n l 26477634595870174319 l) 26477916070913994351 (n l 26544606983039312751 l)) 26544616861681676901 (n (n l 26544619099125476463 l) 26544620198570916463 (n l 26544623441287277665 l)))))))
def tItalian1101 : T := (n (n (n (n (n (n (n l 26544623531531860577 l) 26544623548777983077 (n l 26544624622519935841 l)) 26545733948198187621 (n (n l 26545734008361282661 l) 26545744977792560225 (n l 26545745003460850273 l))) 26545749350002357103 (n (n (n l 26545749392784323439 l) 26545749418821383023 (n l 26545749423116740975 l)) 26545750441007739493 (n (n l 26546856631309266543 l) 26546868678457389679 (n l 26546869807950492773 l)))) 26546875241285117029 (n (n (n (n l 26546875258582426479 l) 26546875301397885801 (n l 26547705428197927279 l)) 26548547628402637409 (n (n l 26548548715246744431 l) 26548552022219649637 (n l 26548557528335085167 l))) 26548557558366631009 (n (n (n l 26548557575764274785 l) 26548558653566186095 (n l 26548561952235287407 l)) 26548565225134192239 (n (n l 26548565267832861551 l) 26548566290269956463 (n l 26549394230998299503 l))))) 26549394243832738671 (n (n (n (n (n l 26549394248126526575 l) 26549394269601625711 (n l 26549394299599878753 l)) 26549394303895172207 (n (n l 26549394312417538927 l) 26549398676137668709 (n l 26549405221818559841 l))) 26549405230560342629 (n (n (n l 26549405243176940655 l) 26549405264919816033 (n l 26549405268946678625 l)) 26549405281999352929 (n (n l 26549411827361412197 l) 26550235353097790319 (n l 26550240880720180335 l)))) 26550246421044294757 (n (n (n (n l 26622291890423165793 l) 26688722145496560751 (n l 26688723270575942757 l)) 26688723322300101743 (n (n l 26688734244184222063 l) 26688736495032169327 (n l 26688739729177145953 l))) 26688739806233980513 (n (n (n l 26689848054009918053 l) 26689848122729132655 (n l 26689849170650821221 l)) 26689852434808927343 (n (n l 26689852469287350895 l) 26689852507707110255 (n l 26689862416447140453 l)))))) 26689865693424153455 (n (n (n (n (n (n l 26689865710369600111 l) 26689866788690813793 (n l 26689868987461891183 l)) 26690972837023937125 (n (n l 26690972910056274543 l) 26690973936770442081 (n l 26690973954017161829 l))) 26690975070390545519 (n (n (n l 26690977235321582181 l) 26690977282332521327 (n l 26690978364663819375 l)) 26690983849621550191 (n (n l 26690984931819352677 l) 26690984935896676975 (n l 26690986052823448175 l)))) 26690986091443483759 (n (n (n (n l 26690986112952001391 l) 26690986117230192993 (n l 26690988230421083247 l)) 26690988247635817583 (n (n l 26690988316220289637 l) 26690991563047791717 (n l 26690991593163617391 l))) 26690991619100669039 (n (n (n l 26690993783663717989 l) 26692661747282174831 (n l 26692663885957654895 l)) 26692663920536023653 (n (n l 26692680438845108837 l) 26692683694547888495 (n l 26694362691737187183 l))))) 26760778635626508901 (n (n (n (n (n l 26760778691645633647 l) 26760789652151299425 (n l 26760789661025661541 l)) 26760794084775392367 (n (n l 26760796223417183855 l) 26760796231974481263 (n l 26761059062530536559 l))) 26761059088585814629 (n (n (n l 26761063460593824357 l) 26761077732937921125 (n l 26761081018453684837 l)) 26761340486220215151 (n (n l 26761340494591982177 l) 26761340537524022383 (n l 26761349333617308261 l)))) 26761349350982447215 (n (n (n (n l 26761352593732104805 l) 26761355887754636385 (n l 26761355922298729583 l)) 26761355939512152677 (n (n l 26761355952414223973 l) 26761355982595781477 (n l 26761362484824795489 l))) 26761362519435997797 (n (n (n l 26761910054567242849 l) 26761915534944597103 (n l 26761916625816875631 l)) 26761916630312252005 (n (n l 26761916660309914735 l) 26761921109745891937 (n l 26761922187782681701 l)))))))
def tItalian110 : T := n tItalian1100 26544623449927347297 tItalian1101
def tItalian1110 : T := (n (n (n (n (n (n (n l 26762184980004041583 l) 26762200347295969893 (n l 26762200373165913199 l)) 26762206922672796783 (n (n l 26762466385908755567 l) 26762466454577181807 (n l 26763041443526895983 l))) 26763042611722810479 (n (n (n l 26763043646861109601 l) 26763043659813515887 (n l 26764155304706405487 l)) 26764159685606601839 (n (n l 26764159702467896431 l) 26764170680722354789 (n l 26764170706492159087 l)))) 26764177299250181231 (n (n (n (n l 26764441151859159653 l) 26764441177796211823 (n l 26764719285166963311 l)) 26764720389208830831 (n (n l 26764723700528084079 l) 26764730323233831535 (n l 26764730361904196709 l))) 26764730366249825381 (n (n (n l 26764731375818466159 l) 26764736937483006831 (n l 26764999729451725413 l)) 26764999746598630511 (n (n l 26764999764130884705 l) 26765004080371036773 (n l 26765004127398165089 l))))) 26765004131995185765 (n (n (n (n (n l 26765004162176480367 l) 26765008499858568303 (n l 26765015122832881263 l)) 26765018365247451749 (n (n l 26765018408381674607 l) 26765021702722776687 (n l 26766125582231106149 l))) 26766125608034464879 (n (n (n l 26766125629477057647 l) 26766134399649215599 (n l 26766134460130751343 l)) 26766144265221403759 (n (n l 26766144282352249967 l) 26766147555099243109 (n l 26766147610968220783 l)))) 26766408148130755183 (n (n (n (n l 26766423588554830959 l) 26766426900075278959 (n l 26766697349870809199 l)) 26766697410083517025 (n (n l 26766710556877484645 l) 26832836311319147631 (n l 26832837333471031909 l))) 26832858275781899361 (n (n (n l 26833973137523043951 l) 26833975396726173285 (n l 26833979790344223343 l)) 26833979824770675823 (n (n l 26835105617336035695 l) 26836790146493082721 (n l 26837620204857680751 l)))))) 26837620226164812129 (n (n (n (n (n (n l 26837620252103046255 l) 26837620256464794735 (n l 26837620277822579567 l)) 26837620282250851439 (n (n l 26837624650149423471 l) 26837624675936201839 (n l 26837629005128360815 l))) 26837629086682868833 (n (n (n l 26837635675414555745 l) 26837642199183750255 (n l 26838465725089542753 l)) 26838476754497138287 (n (n l 26838483325663407727 l) 26905457903400874597 (n l 26908009869787362415 l)))) 26908285885794708847 (n (n (n (n l 26908560699377741423 l) 26908560772157303151 (n l 26909968091424189551 l)) 26910245198502653029 (n (n l 26910249587792575087 l) 26976956958248105071 (n l 26976962455740380257 l))) 26976962468843058031 (n (n (n l 26976962494645498469 l) 26976964642130064239 (n l 26976969039857742949 l)) 26978082828274723941 (n (n l 26978094931409071713 l) 26978094939848139617 (n l 26978096082359970927 l))))) 26978097121892331119 (n (n (n (n (n l 26979203286140089445 l) 26979204342836258671 (n l 26979205446709113445 l)) 26979220865625843567 (n (n l 26980903058420624485 l) 26980909655272287845 (n l 27265193948750507617 l))) 27270812397216297583 (n (n (n l 6520236790674580927077 l) 6538391641898806572133 (n l 6555615948957823888993 l)) 6555902481713791595109 (n (n l 6555903053391236525423 l) 6556192972599816973935 (n l 6556623066398892061807 l)))) 6556623615037846680165 (n (n (n (n l 6556623623893918511717 l) 6556624190099456880751 (n l 6574351186203799483503 l)) 6574351192740672465263 (n (n l 6574351469877966501487 l) 6593297265773946958959 (n l 6611964968773604373601 l))) 6612177482359546082401 (n (n (n l 6667232308923126084197 l) 6667233998825018978917 (n l 6721632129939789476975 l)) 6721925438904465452133 (n (n l 6740081688746270225263 l) 6740082251661613167727 (n l 6740083936164899418991 l)))))))
def tItalian1111 : T := (n (n (n (n (n (n (n l 6740367379194626794351 l) 6740655051078967063141 (n l 6741016471546167386991 l)) 6741091049238136451695 (n (n l 6741091053640160012655 l) 6741092194886017447023 (n l 6741093309808022287471 l))) 6741522840626777582703 (n (n (n l 6758529002362457322095 l) 6758819487845798470511 (n l 6759538942241149383525 l)) 6777116750032172707429 (n (n l 6777116758763774047333 l) 6777116765421190869605 (n l 6777116771992524124773 l)))) 6777333789229347599471 (n (n (n (n l 6777768652670875037025 l) 6777839034613621550693 (n l 6777912779898096675941 l)) 6778198179022981656175 (n (n l 6778199330310557955173 l) 6795419381069518238831 (n l 6795421912222946389601 l))) 6795424179355608639841 (n (n (n l 6795711834700046759023 l) 6795711836899137122917 (n l 6795711837938435583585 l)) 6795711847881151574895 (n (n l 6795712133741305754223 l) 6795712416328595698789 (n l 6796430731686170948709 l))))) 6796432709733325042799 (n (n (n (n (n l 6796644935243059524197 l) 6796644937381919683695 (n l 6832313151821674735983 l)) 6832315984163559797349 (n (n l 6832317372816630576239 l) 6832317391551211531375 (n l 6832318238119314158703 l))) 6832601112812980892783 (n (n (n l 6832603630746232385125 l) 6832604775264888910437 (n l 6832605609772605928549 l)) 6832605903363701826401 (n (n l 6832888784658986071151 l) 6832889336544951891055 (n l 6832889346449013568623 l)))) 6832890458119960884335 (n (n (n (n l 6832891861092486181999 l) 6832892157956062734703 (n l 6832892424042171692129 l)) 6832892443756390347887 (n (n l 6832892447071970882149 l) 6832893002381277622885 (n l 6832893853377507718255 l))) 6832894684616603563105 (n (n (n l 6833324488110232920943 l) 6850762147635135869537 (n l 6850764400581570819173 l)) 6850831109038571022703 (n (n l 6850833376205810528869 l) 6850834217332105114735 (n l 6850835048562996376687 l)))))) 6850835912791971294821 (n (n (n (n (n (n l 6850903176498181665381 l) 6850903184207731847781 (n l 6850907117207852053615 l)) 6850907118264648889455 (n (n l 6850907963814809006693 l) 6850907970446189029743 (n l 6850976347927747850853 l))) 6850979168140612694629 (n (n (n l 6851047843636985557601 l) 6851048981631384777839 (n l 6851048986046527272047 l)) 6851050379192402802287 (n (n l 6851050397802277857647 l) 6851052082254091938159 (n l 6851052647437528297057 l)))) 6851119357006840951919 (n (n (n (n l 6851123280047400645221 l) 6851124143228486513775 (n l 6851195348640698823269 l)) 6851196178827980141679 (n (n l 6851338903056554746735 l) 6851339190106315121765 (n l 6851555628893018092129 l))) 6851624878394453357679 (n (n (n l 6851771527930860368495 l) 6851772660410674014575 (n l 6851772662652730438767 l)) 6851841050016960836193 (n (n l 6851841058894623370341 l) 6851842170479304471407 (n l 6851843012700781765743 l))))) 6851984030543110042213 (n (n (n (n (n l 6851987988810890835055 l) 6852132942973818204773 (n l 6852201895456691287151 l)) 6852204991681333916783 (n (n l 6852205003818827609199 l) 6869206364013234122351 (n l 6869208897283594219119 l))) 6869210598150858172257 (n (n (n l 6869497404732180949359 l) 6869497702626850991215 (n l 6869499108919653528687 l)) 6869786490481418528367 (n (n l 6869787622956635944037 l) 6870217706838614438501 (n l 6870218836067070994785 l)))) 6870219685942399431265 (n (n (n (n l 6870433028641494165871 l) 6870433042956587530849 (n l 6870433044060610589807 l)) 6888589856783398630511 (n (n l 6888590981545356260197 l) 6888591542313214375023 (n l 6906099845516220265583 l))) 6906100969187056706671 (n (n (n l 6906102960398184966511 l) 6906391173199431559521 (n l 6906392316708535757925 l)) 6906675755391506084965 (n (n l 6906676312886851041889 l) 6906679402493369086565 (n l 6906680548197118407791 l)))))))
def tItalian111 : T := n tItalian1110 6740083950419929164897 tItalian1111
def tItalian11 : T := n tItalian110 26762184953864221285 tItalian111
def tItalian1 : T := n tItalian10 25827988232237382241 tItalian11
def tItalian : T := n tItalian0 102845510455686241 tItalian1

def tJapanese0000 : T := (n (n (n (n (n (n (n (n l 8919109659125149303435 l) 8919109659125216412299 l) 8919109659125283520900 (n l 8919109659125283520946 l)) 8919109659125451293323 (n (n l 8919109659125535179140 l) 8919109659125568733610 (n l 8919109659125770060427 l))) 8919109659125971386756 (n (n (n l 8919109659125971387018 l) 8919109659129326830208 (n l 8919109659129377161623 l)) 8919109659129544933764 (n (n l 8919109659129544933779 l) 8919110222075052393107 (n l 8919110222075102724747 l)))) 8919110222075169833619 (n (n (n (n l 8919110222075203387782 l) 8919110222075203387791 (n l 8919110222075203387812 l)) 8919110222075236942483 (n (n l 8919110222075270496653 l) 8919110222075337605508 (n l 8919110222075337605517 l))) 8919110222075404714431 (n (n (n l 8919110222075471823265 l) 8919110222075488600459 (n l 8919110222075522155155 l)) 8919110222075555709331 (n (n l 8919110222075589263748 l) 8919110222075589263755 (n l 8919110222075656372641 l))))) 8919110222075656372875 (n (n (n (n (n l 8919110222075673149860 l) 8919110222075673150099 (n l 8919110222075723481747 l)) 8919110222075773813135 (n (n l 8919110222075824145043 l) 8919110222075874476422 (n l 8919110222075941585555 l))) 8919110222079213142666 (n (n (n l 8919110222079246696857 l) 8919110222079313805711 (n l 8919110222079330582916 l)) 8919110222079380914564 (n (n l 8919110222079380914827 l) 8919110222079431246212 (n l 8919110222079431246214 l)))) 8919110785024972259725 (n (n (n (n l 8919110785024972259979 l) 8919110785025056146063 (n l 8919110785025123254923 l)) 8919110785025156809363 (n (n l 8919110785025257472388 l) 8919110785025291026852 (n l 8919110785025391690125 l))) 8919110785025442022027 (n (n (n l 8919110785025542685323 l) 8919110785025593016971 (n l 8919110785025609793926 l)) 8919110785029149786763 (n (n l 8919110785029166563718 l) 8919110785029267227023 (n l 8919110785029334336139 l)))))) 8919110785029351113107 (n (n (n (n (n (n l 8919110785029384667533 l) 8919110785029384667541 (n l 8919111347974858572431 l)) 8919111347974959235722 (n (n l 8919111347975210893734 l) 8919111347975781319315 (n l 8919111347975831650701 l))) 8919111347979119985070 (n (n (n l 8919111347979237425540 l) 8919111347979254202754 (n l 8919111910924879102603 l)) 8919111910924912656772 (n (n l 8919111910924912656774 l) 8919111910924912657028 (n l 8919111910924962988683 l)))) 8919111910924996543115 (n (n (n (n l 8919111910925063651737 l) 8919111910925063651979 (n l 8919111910925264978319 l)) 8919111910925332087208 (n (n l 8919111910925348864650 l) 8919111910929073406342 (n l 8919111910929106960804 l))) 8919111910929257955737 (n (n (n l 8919112192399755149732 l) 8919112192399788704399 (n l 8919112192399855813259 l)) 8919112192399889367690 (n (n l 8919112192400241688964 l) 8919112192400241688993 (n l 8919112192400493347206 l))))) 8919112192400711451014 (n (n (n (n (n l 8919112192400761782662 l) 8919112192404117225860 (n l 8919112192404167557508 l)) 8919112192404201111940 (n (n l 8919112192404234666374 l) 8919112192404268220815 (n l 8919112192404268221065 l))) 8919112192404335329697 (n (n (n l 8919112755349708571012 l) 8919112755349708571044 (n l 8919112755349742125709 l)) 8919112755349775679876 (n (n l 8919112755349775680147 l) 8919112755349809234571 (n l 8919112755349842788742 l)))) 8919112755349842788751 (n (n (n (n l 8919112755349842788769 l) 8919112755349842789011 (n l 8919112755349859565956 l)) 8919112755349859565967 (n (n l 8919112755349893120422 l) 8919112755349993783686 (n l 8919112755349993783695 l))) 8919112755350027338116 (n (n (n l 8919112755350027338127 l) 8919112755350027338174 (n l 8919112755350094446982 l)) 8919112755350128001412 (n (n l 8919112755350128001421 l) 8919112755350128001444 (n l 8919112755350161555846 l)))))))
def tJapanese0001 : T := (n (n (n (n (n (n (n l 8919112755350312550788 l) 8919112755350379659652 (n l 8919112755350379659667 l)) 8919112755350429991571 (n (n l 8919112755350446768518 l) 8919112755350463545743 (n l 8919112755350513877651 l))) 8919112755350564209039 (n (n (n l 8919112755350664872595 l) 8919112755350715204235 (n l 8919112755350731981220 l)) 8919112755353986761355 (n (n l 8919112755354003538337 l) 8919112755354003538350 (n l 8919112755354020315535 l)))) 8919112755354037092751 (n (n (n (n l 8919112755354104201606 l) 8919112755354120978820 (n l 8919112755354120978831 l)) 8919112755354137756307 (n (n l 8919112755354171310468 l) 8919112755354171310500 (n l 8919112755354188087695 l))) 8919113318299729101197 (n (n (n l 8919113318299812987539 l) 8919113318299980759428 (n l 8919113318299980759437 l)) 8919113318299980759691 (n (n l 8919113318300081422995 l) 8919113318300333081235 (n l 8919113318300400189830 l))))) 8919113318300517630342 (n (n (n (n (n l 8919113318303940182667 l) 8919113318304074400153 (n l 8919113318304107954622 l)) 8919113318304124732043 (n (n l 8919113318304141508998 l) 8919113881249615413674 (n l 8919113881249648968083 l))) 8919113881249648968333 (n (n (n l 8919113881249934180749 l) 8919113881249967735181 (n l 8919113881250185838980 l)) 8919113881250252948107 (n (n l 8919113881250286502297 l) 8919113881250286502335 (n l 8919113881250320056717 l)))) 8919113881250336834195 (n (n (n (n l 8919113881250370388356 l) 8919113881250622046858 (n l 8919113881253876826519 l)) 8919113881253876826762 (n (n l 8919113881253910380974 l) 8919113881254027821444 (n l 8919113881254195593604 l))) 8919113881254195593610 (n (n (n l 8919113881254195593611 l) 8919113881254195593662 (n l 8919113881254195593866 l)) 8919114444199602389420 (n (n l 8919114444199669498507 l) 8919114444199703052938 (n l 8919114444199820493188 l)))))) 8919114444199820493451 (n (n (n (n (n (n l 8919114444199854047885 l) 8919114444199887602305 (n l 8919114444199921156516 l)) 8919114444199954710918 (n (n l 8919114444199988265348 l) 8919114444199988265357 (n l 8919114444200055374212 l))) 8919114444200055374244 (n (n (n l 8919114444200122483083 l) 8919114444200172814724 (n l 8919114444200172814995 l)) 8919114444200206369175 (n (n l 8919114444200206369418 l) 8919114444200307032511 (n l 8919114444200307032712 l)))) 8919114444200424472966 (n (n (n (n l 8919114444200424473235 l) 8919114444200575468171 (n l 8919114444203863802273 l)) 8919114444203863802286 (n (n l 8919114444203863802515 l) 8919114444203897356687 (n l 8919114444203897356734 l))) 8919114444203930911110 (n (n (n l 8919114444203964465540 l) 8919114444203964465542 (n l 8919114444203998020235 l)) 8919114444204149014925 (n (n l 8919114444204149015172 l) 8919115007149589365162 (n l 8919115007149673251242 l))))) 8919115007149740360087 (n (n (n (n (n l 8919115007149740360329 l) 8919115007149807468943 (n l 8919115007149807468964 l)) 8919115007150008795795 (n (n l 8919115007150126236036 l) 8919115007150159790470 (n l 8919115007150159790487 l))) 8919115007150159790731 (n (n (n l 8919115007150260453766 l) 8919115007150478557574 (n l 8919115007150528889241 l)) 8919115007153783669137 (n (n l 8919115007153800446603 l) 8919115007153884332422 (n l 8919115007153917886854 l)))) 8919115007153917886863 (n (n (n (n l 8919115007154035327627 l) 8919115007154102436235 (n l 8919115007154102436253 l)) 8919115007154102436257 (n (n l 8919115007154102436286 l) 8919115007154102436287 (n l 8919115570099475677572 l))) 8919115570099509232015 (n (n (n l 8919115570099509232275 l) 8919115570099542786465 (n l 8919115570099576340868 l)) 8919115570099609895313 (n (n l 8919115570099626672516 l) 8919115570099626672527 (n l 8919115570099861553542 l)))))))
def tJapanese000 : T := n tJapanese0000 8919112755350278996397 tJapanese0001
def tJapanese0010 : T := (n (n (n (n (n (n (n l 8919115570099962216895 l) 8919115570100079657348 (n l 8919115570100079657357 l)) 8919115570100079657380 (n (n l 8919115570100146766483 l) 8919115570100197097918 (n l 8919115570100197098131 l))) 8919115570100230652292 (n (n (n l 8919115570100230652324 l) 8919115570100230652563 (n l 8919115570100331315599 l)) 8919115570100381647236 (n (n l 8919115570100431978886 l) 8919115570100431979155 (n l 8919115570100482310534 l)))) 8919115570100482310795 (n (n (n (n l 8919115570100499088019 l) 8919115570103753867652 (n l 8919115570103753867915 l)) 8919115570103770645139 (n (n l 8919115570103787422099 l) 8919115570103820976575 (n l 8919115570104055857547 l))) 8919116133049429098903 (n (n (n l 8919116133049429098922 l) 8919116133049462653323 (n l 8919116133049613648318 l)) 8919116133049647202694 (n (n l 8919116133049680757387 l) 8919116133049714311575 (n l 8919116133049814975104 l))))) 8919116133050033078669 (n (n (n (n (n l 8919116133050033078923 l) 8919116133050150519435 (n l 8919116133050167296403 l)) 8919116133050284737164 (n (n l 8919116133050435731844 l) 8919116133053707288983 (n l 8919116133053724066182 l))) 8919116133053757620621 (n (n (n l 8919116133053875061377 l) 8919116133053942170251 (n l 8919116695999516737926 l)) 8919116695999567069824 (n (n l 8919116695999567069830 l) 8919116695999634178707 (n l 8919116695999667732870 l)))) 8919116695999869059460 (n (n (n (n l 8919116695999869059473 l) 8919116696000053608843 (n l 8919116696000389153156 l)) 8919116696000389153419 (n (n l 8919116696003660710539 l) 8919116696003811705269 (n l 8919116696003962700164 l))) 8919116696003962700171 (n (n (n l 8919116696003962700175 l) 8919116696003962700416 (n l 8919116696003962700429 l)) 8919117258949335941519 (n (n l 8919117258949369495981 l) 8919117258949403050381 (n l 8919117258949403050634 l)))))) 8919117258949436605075 (n (n (n (n (n (n l 8919117258949621154182 l) 8919117258949688263082 (n l 8919117258949755371908 l)) 8919117258949755372179 (n (n l 8919117258949889589672 l) 8919117258949906366854 (n l 8919117258950007030175 l))) 8919117258950342574500 (n (n (n l 8919117258950342574731 l) 8919117258953597354383 (n l 8919117258953614131851 l)) 8919117258953815458182 (n (n l 8919117821899289362820 l) 8919117821899322917261 (n l 8919117821899322917267 l)))) 8919117821899322917307 (n (n (n (n l 8919117821899322917504 l) 8919117821899322917513 (n l 8919117821899322917515 l)) 8919117821899356471688 (n (n l 8919117821899390026379 l) 8919117821899423580569 (n l 8919117821899423580811 l))) 8919117821899440357764 (n (n (n l 8919117821899440357805 l) 8919117821899574575503 (n l 8919117821899608129924 l)) 8919117821899775902095 (n (n l 8919117821899775902143 l) 8919117821899893342859 (n l 8919117821899977228947 l))))) 8919117821899994005901 (n (n (n (n (n l 8919117821900044337572 l) 8919117821900295996043 (n l 8919117821903567552921 l)) 8919117821903567553163 (n (n l 8919117821903584330148 l) 8919117821903684993675 (n l 8919117821903701770649 l))) 8919117821903718548107 (n (n (n l 8919117821903735325096 l) 8919117821903752102539 (n l 8919117821903869542788 l)) 8919117821903869542795 (n (n l 8919117821903869542797 l) 8919118384849242784132 (n l 8919118384849242784403 l)))) 8919118384849276338573 (n (n (n (n l 8919118384849343447699 l) 8919118384849393779076 (n l 8919118384849393779337 l)) 8919118384849427333779 (n (n l 8919118384849494442643 l) 8919118384849527996815 (n l 8919118384849561551236 l))) 8919118384849595105677 (n (n (n l 8919118384849662214532 l) 8919118384849695768966 (n l 8919118384849729323396 l)) 8919118384849729323667 (n (n l 8919118384849846763917 l) 8919118384849846764179 (n l 8919118384849947427213 l)))))))
def tJapanese0011 : T := (n (n (n (n (n (n (n l 8919118384849980981638 l) 8919118384850199085446 (n l 8919118384850249417119 l)) 8919118384850266194340 (n (n l 8919118384853655191959 l) 8919118384853655191999 (n l 8919118384853755855503 l))) 8919119229274206470539 (n (n (n l 8919119229274240024971 l) 8919119229274240025231 (n l 8919119229274323911046 l)) 8919119229274391019949 (n (n l 8919119229274391020171 l) 8919119229274424574381 (n l 8919119229274424574603 l)))) 8919119229274743341696 (n (n (n (n l 8919119229274844004799 l) 8919119229274911113867 (n l 8919119229275179549323 l)) 8919119229275196326285 (n (n l 8919119229278467883658 l) 8919119229278467883659 (n l 8919119229278568546692 l))) 8919119229278685987466 (n (n (n l 8919119792224126337431 l) 8919119792224126337446 (n l 8919119792224126337471 l)) 8919119792224159891851 (n (n l 8919119792224159891853 l) 8919119792224159891863 (n l 8919119792224193446305 l))))) 8919119792224512213642 (n (n (n (n (n l 8919119792224579322246 l) 8919119792224696763012 (n l 8919119792224830980493 l)) 8919119792224881312132 (n (n l 8919119792225082638995 l) 8919119792225132970376 (n l 8919119792228538745241 l))) 8919119792228639408529 (n (n (n l 8919119792228706517389 l) 8919119792228706517399 (n l 8919120355174113313420 l)) 8919120355174146867607 (n (n l 8919120355174213976452 l) 8919120355174213976459 (n l 8919120355174213976463 l)))) 8919120355174213976473 (n (n (n (n l 8919120355174213976715 l) 8919120355174230753668 (n l 8919120355174230753689 l)) 8919120355174297862532 (n (n l 8919120355174297862571 l) 8919120355174331416964 (n l 8919120355174331417227 l))) 8919120355174364971652 (n (n (n l 8919120355174398525835 l) 8919120355174532743558 (n l 8919120355174566298259 l)) 8919120355174750847364 (n (n l 8919120355174750847626 l) 8919120355175036060038 (n l 8919120355175086391947 l)))))) 8919120355178357949067 (n (n (n (n (n (n l 8919120355178374726283 l) 8919120918124066734489 (n l 8919120918124167397785 l)) 8919120918124251283865 (n (n l 8919120918124351947153 l) 8919120918124721046159 (n l 8919120918124771377547 l))) 8919120918125039813000 (n (n (n l 8919120918125039813055 l) 8919120918128311370379 (n l 8919120918128361702016 l)) 8919120918128445587846 (n (n l 8919120918128495919755 l) 8919121199599009890694 (n l 8919121199599076999569 l)))) 8919121199599144108420 (n (n (n (n l 8919121199599160885636 l) 8919121199599362212237 (n l 8919121199599563538827 l)) 8919121199599563538829 (n (n l 8919121199599680979334 l) 8919121199599966192275 (n l 8919121199600016523905 l))) 8919121199603304858020 (n (n (n l 8919121199603338412682 l) 8919121199603590070660 (n l 8919121199603590070667 l)) 8919121199603590070669 (n (n l 8919121199603590070689 l) 8919121199603590070912 (n l 8919121481074137596313 l))))) 8919121481074372477568 (n (n (n (n (n l 8919121481078264791690 l) 8919121481078399009177 (n l 8919121762548996866445 l)) 8919121762548996866699 (n (n l 8919121762548996866701 l) 8919121762549181416073 (n l 8919121762549248524928 l))) 8919121762549533737348 (n (n (n l 8919121762549969944973 l) 8919121762549986722239 (n l 8919121762553224724868 l)) 8919121762553258279336 (n (n l 8919121762553375719814 l) 8919121762553543491991 (n l 8919122044024225235353 l)))) 8919122044024225235595 (n (n (n (n l 8919122044024359453323 l) 8919122044024493670799 (n l 8919122044024694997641 l)) 8919122044028268544446 (n (n l 8919122044028402762387 l) 8919122044028520202637 (n l 8919122325498916733327 l))) 8919122325498950287777 (n (n (n l 8919122325499017396875 l) 8919122325499050951307 (n l 8919122325499067728260 l)) 8919122325499067728523 (n (n l 8919122325499168391827 l) 8919122325499235500479 (n l 8919122325499235500691 l)))))))
def tJapanese001 : T := n tJapanese0010 8919118384849947427466 tJapanese0011
def tJapanese00 : T := n tJapanese000 8919115570099962216870 tJapanese001
def tJapanese0100 : T := (n (n (n (n (n (n (n l 8919122325499336163979 l) 8919122325499369718419 (n l 8919122325499403272851 l)) 8919122325499587821977 (n (n l 8919122325503194923428 l) 8919122325503245255044 (n l 8919122325503245255063 l))) 8919122325503329141126 (n (n (n l 8919122325503429804420 l) 8919122325503496913284 (n l 8919122325503496913299 l)) 8919123169923880419725 (n (n l 8919123169923913974419 l) 8919123169923947528843 (n l 8919123169923997860239 l)))) 8919123169923997860490 (n (n (n (n l 8919123169923997860491 l) 8919123169923997860499 (n l 8919123169924064969092 l)) 8919123169924098523556 (n (n l 8919123169924132077967 l) 8919123169924165632388 (n l 8919123169924165632659 l))) 8919123169924199187079 (n (n (n l 8919123169924299850123 l) 8919123169924299850368 (n l 8919123169924333404811 l)) 8919123169924400513431 (n (n l 8919123169924400513433 l) 8919123169924450845060 (n l 8919123169924517954195 l))))) 8919123169924568285835 (n (n (n (n (n l 8919123169924601840275 l) 8919123169924803166598 (n l 8919123169924853498515 l)) 8919123169924870275492 (n (n l 8919123169928125055364 l) 8919123169928175387025 (n l 8919123169928175387033 l))) 8919123169928242495878 (n (n (n l 8919123169928259273103 l) 8919123169928276050340 (n l 8919123169928292827582 l)) 8919123169928309604740 (n (n l 8919123169928326381956 l) 8919123169928326381958 (n l 8919123169928326381965 l)))) 8919124014348776997523 (n (n (n (n l 8919124014348844106165 l) 8919124014348877660811 (n l 8919124014348911215251 l)) 8919124014348927992196 (n (n l 8919124014348961546899 l) 8919124014349062209926 (n l 8919124014349095764356 l))) 8919124014349162873278 (n (n (n l 8919124014349196427652 l) 8919124014349229982095 (n l 8919124014349263536787 l)) 8919124014349330645389 (n (n l 8919124014349347422598 l) 8919124014349347422603 (n l 8919124014349414531723 l)))))) 8919124014349414531731 (n (n (n (n (n (n l 8919124014349515194758 l) 8919124014349531971972 (n l 8919124014349682967187 l)) 8919124014349783630483 (n (n l 8919124014349800407699 l) 8919124014353055187364 (n l 8919124014353055187603 l))) 8919124014353172627846 (n (n (n l 8919124014353206182291 l) 8919124014353206182539 (n l 8919124014353222959492 l)) 8919124858773740683661 (n (n l 8919124858773740683669 l) 8919124858773740683677 (n l 8919124858773740683919 l)))) 8919124858773992342144 (n (n (n (n l 8919124858778119537049 l) 8919125703198637261459 (n l 8919125703198670815631 l)) 8919125703198737924747 (n (n l 8919125703198771479187 l) 8919125703198788256403 (n l 8919125703198855365261 l))) 8919125703198888919460 (n (n (n l 8919125703198888919699 l) 8919125703198922473862 (n l 8919125703198922474123 l)) 8919125703198989582724 (n (n l 8919125703198989582756 l) 8919125703198989582981 (n l 8919125703199056691588 l))))) 8919125703199090246020 (n (n (n (n (n l 8919125703199090246031 l) 8919125703199123800486 (n l 8919125703199123800715 l)) 8919125703199190909333 (n (n l 8919125703202915451531 l) 8919125703203217441156 (n l 8919125703203217441165 l))) 8919125703203217441169 (n (n (n l 8919126547623718388100 l) 8919126547623819051659 (n l 8919126547623852605864 l)) 8919126547623886160292 (n (n l 8919126547623953269135 l) 8919126547624137818762 (n l 8919126547624204927617 l)))) 8919126547624272036241 (n (n (n (n l 8919126547624288813455 l) 8919126547624523694470 (n l 8919126547627862360715 l)) 8919126547627963023750 (n (n l 8919126547628080464281 l) 8919126547628080464522 (n l 8919126547628080464523 l))) 8919126829098577658505 (n (n (n l 8919126829098611212705 l) 8919126829098644767371 (n l 8919126829098695098783 l)) 8919126829098695099027 (n (n l 8919126829098795762323 l) 8919126829098829316755 (n l 8919126829098929979780 l)))))))
def tJapanese0101 : T := (n (n (n (n (n (n (n l 8919126829099097751947 l) 8919126829099148083588 (n l 8919126829099215192488 l)) 8919126829099282301318 (n (n l 8919126829099500405395 l) 8919126829102839071144 (n l 8919126829102956511620 l))) 8919126829103057174927 (n (n (n l 8919126829103124283787 l) 8919181153769082814859 (n l 8919181153769149923725 l)) 8919181153769149923987 (n (n l 8919181153769200255364 l) 8919181153769200255366 (n l 8919181153769200255368 l)))) 8919181153769200255383 (n (n (n (n l 8919181153769300918923 l) 8919181153769401582221 (n l 8919181153769435136390 l)) 8919181153769435136403 (n (n l 8919181153769435136641 l) 8919181153769468691083 (n l 8919181153769468691091 l))) 8919181153769787457926 (n (n (n l 8919181153773377782207 l) 8919181153773444891014 (n l 8919181153773528777363 l)) 8919181435244059525527 (n (n l 8919181435244378292639 l) 8919181435245032604036 (n l 8919181435248354492825 l))))) 8919181716719103345291 (n (n (n (n (n l 8919181716719220785559 l) 8919181716723415089542 (n l 8919181716723582861711 l)) 8919182279669090321028 (n (n l 8919182279669207761547 l) 8919182279669274870148 (n l 8919182279669341979012 l))) 8919182279669341979071 (n (n (n l 8919182279669375533707 l) 8919182279669409087878 (n l 8919182279669442642308 l)) 8919182279669476197011 (n (n l 8919182279669509751208 l) 8919182279673234293387 (n l 8919182279673351733636 l)))) 8919182842618976633229 (n (n (n (n l 8919182842619161182628 l) 8919182842619328955027 (n l 8919182842619362509190 l)) 8919182842619396063627 (n (n l 8919182842623321932164 l) 8919182842623372264075 (n l 8919183405568930054532 l))) 8919183405568930054539 (n (n (n l 8919183405568930054553 l) 8919183405569013940883 (n l 8919183405569047495315 l)) 8919183405569114603908 (n (n l 8919183405569181713043 l) 8919183405569315930502 (n l 8919183405569315930511 l)))))) 8919183405569416593803 (n (n (n (n (n (n l 8919183405569466925444 l) 8919183405569584365988 (n l 8919183405573191467407 l)) 8919183405573225021830 (n (n l 8919183687043873210758 l) 8919183687044259086995 (n l 8919183687044326195588 l))) 8919183687044393304459 (n (n (n l 8919183687048302395812 l) 8919183968518917030285 (n l 8919183968518967361924 l)) 8919183968519034470820 (n (n l 8919183968519068025491 l) 8919183968519101579654 (n l 8919183968519235797380 l)))) 8919183968519269351814 (n (n (n (n l 8919183968519269351823 l) 8919183968519420347027 (n l 8919183968519537787539 l)) 8919183968523178443142 (n (n l 8919183968523211997574 l) 8919183968523245552015 (n l 8919183968523279106445 l))) 8919183968523295883923 (n (n (n l 8919184531468954337687 l) 8919184812943813607819 (n l 8919184812944031711652 l)) 8919184812944165929619 (n (n l 8919184812944350478995 l) 8919184812948024689299 (n l 8919184812948209238436 l))))) 8919184812948326679178 (n (n (n (n (n l 8919185375893850915225 l) 8919185375893850915457 (n l 8919185375894052241828 l)) 8919185375898112328070 (n (n l 8919185375898162659979 l) 149637829278826467617075855780 (n l 149637829278826467617243628185 l))) 149637829278831815641314591144 (n (n (n l 149637829278832378595948855693 l) 149637829278833504492030493337 (n l 149637829278834067441228939915 l)) 149637829278835474816162824582 (n (n l 149637829278835474817018462858 l) 149637829278835474820290019979 (n l 149637829278840259895078650507 l)))) 149637829278840259895296754313 (n (n (n (n l 149637829278840259895296754315 l) 149637829278842793166043841177 (n l 149637829278843074644677984686 l)) 149637829278897680790294069643 (n (n l 149637829278898525211801649803 l) 149637829278899932590040646283 (n l 149637829278899932590191640985 l))) 149637829278901621435958264459 (n (n (n l 149637829278901621436142813835 l) 149637829278902747336049656196 (n l 149637829278902747336116765060 l)) 149637829278902747336452309642 (n (n l 149637838723561403685565333892 l) 149637838723561403685565333903 (n l 149637838723561966630972129668 l)))))))
def tJapanese010 : T := n tJapanese0100 8919126829098963534475 tJapanese0101
def tJapanese0110 : T := (n (n (n (n (n (n (n l 149637838723561966635132879278 l) 149637838723562529581143655065 (n l 149637838723565344335239283135 l)) 149637838723565344335239283340 (n (n l 149637838723565907280662856068 l) 149637838723565907285192704659 (n l 149637838723567033184847888770 l))) 149637838723567033185099547012 (n (n (n l 149637838723567033185099547023 l) 149637838723567596130506342790 (n l 149637838723567596130724446873 l)) 149637838723567596131009659545 (n (n l 149637838723567596131127100057 l) 149637838723567596131227763353 (n l 149637838723568159080744976772 l)))) 149637838723568159080778531206 (n (n (n (n l 149637838723568159080812085907 l) 149637838723568159080929526148 (n l 149637838723569003505574445721 l)) 149637838723569566459889942918 (n (n l 149637838723570973834354066058 l) 149637838723571536784726917771 (n l 149637838723572381209657049485 l))) 149637838723630928000199131560 (n (n (n l 149637838723630928000618562188 l) 149637838723632616850143281811 (n l 149637838723632898325354873256 l)) 149637838723633179804324561286 (n (n l 149637838723633742754194096558 l) 149637838723634587174980256403 (n l 149637838723634587175584236185 l))))) 149637838723634587179191337611 (n (n (n (n (n l 149637838723635713075054870948 l) 149637838723635713079131734406 (n l 149637848168294087945516974745 l)) 149637848168294369421030556313 (n (n l 149637848168294369424855761284 l) 149637848168295495324544500364 (n l 149637848168296058270605607313 l))) 149637848168296058270672716427 (n (n (n l 149637848168296058274330149284 l) 149637848168296621224669446543 (n l 149637848168297184170126574233 l)) 149637848168297747120566534534 (n (n l 149637848168298310070033416857 l) 149637848168298310074127057547 (n l 149637848168300561874007851398 l)))) 149637848168301124819766968970 (n (n (n (n l 149637848168302532199180370579 l) 149637848168303095144637498009 (n l 149637848168303095144805270169 l)) 149637848168308724648449901195 (n (n l 149637848168364456690382504326 l) 149637848168365864064930513284 (n l 149637848168366145539420684940 l))) 149637848168366427014531613060 (n (n (n l 149637848168366708489541878148 l) 149637848168366708493551632781 (n l 149637848168368678814311743878 l)) 149637848168368678814546625171 (n (n l 149637848168368678814630511251 l) 149637857613025364834729034387 (n l 149637857613025364834779366041 l)))))) 149637857613025364834913583769 (n (n (n (n (n (n l 149637857613025364835047801220 l) 149637857613025364839024001414 (n l 149637857613027335164146188682 l)) 149637857613027335164146188687 (n (n l 149637857613027898109905305988 l) 149637857613028461059791618699 (n l 149637857613030712863497617807 l))) 149637857613034372038295519891 (n (n (n l 149637857613037186783868322457 l) 149637857613096859479065199257 (n l 149637857613098829804405490329 l)) 149637857613101644553417622163 (n (n l 149637857613101644553467953540 l) 149637857613101644553501508249 (n l 149637857613101644553769943439 l)))) 149637857613101644553954492836 (n (n (n (n l 149637867057758330574204010905 l) 149637867057758330574271119748 (n l 149637867057758330574489223567 l)) 149637867057758893523972883091 (n (n l 149637867057758893524190986686 l) 149637867057758893524224541337 (n l 149637867057758893524291649956 l))) 149637867057758893524358758788 (n (n (n l 149637867057758893524727857551 l) 149637867057758893528267850118 (n l 149637867057760019428174692765 l)) 149637867057760300898856436362 (n (n l 149637867057760300899141649049 l) 149637867057760300903268844170 (n l 149637867057760300903436616320 l))))) 149637867057761426798981382590 (n (n (n (n (n l 149637867057761426803125355147 l) 149637867057762552699240546694 (n l 149637867057763115648623542923 l)) 149637867057763115649193968004 (n (n l 149637867057763115652801069707 l) 149637867057763678598509855372 (n l 149637867057763678598576964235 l))) 149637867057763678602788045452 (n (n (n l 149637867057765367452748972431 l) 149637867057765367452849635979 (n l 149637867057766493348813832591 l)) 149637867057768463677761225354 (n (n l 149637867057774656122601570954 l) 149637867057829825218489844100 (n l 149637867057829825218523398787 l)))) 149637867057834610292859044228 (n (n (n (n l 149637867057834610292959707779 l) 149637867057834610293026816659 (n l 149637871780124813443715007129 l)) 149637871780124813443882779044 (n (n l 149637871780124813443916333699 l) 149637871780124813444134437254 (n l 149637871780124813444167991955 l))) 149637871780124813444201546118 (n (n (n l 149637871780124813444419649935 l) 149637871780124813444520313222 (n l 149637871780124813447959642502 l)) 149637871780126783768501650059 (n (n l 149637871780126783773081829775 l) 149637871780126783773081829783 (n l 149637871780126783773081829823 l)))))))
def tJapanese0111 : T := (n (n (n (n (n (n (n l 149637871780127909668945363343 l) 149637871780129598522848936587 (n l 149637871780138605722103677323 l)) 149637871780140294567568310937 (n (n l 149637871780201093162504257924 l) 149637871780201093162537812358 (n l 149637871780201093162604921475 l))) 149637871780201093162705584518 (n (n (n l 149637871780201093162739139219 l) 149637871780202782012146418061 (n l 149637871780202782012867838351 l)) 149637871780202782016693043595 (n (n l 149637881224862001307605762699 l) 149637881224864816061953048975 (n l 149637881224864816061953049235 l)))) 149637881224865379007326290571 (n (n (n (n l 149637881224865941961557901702 l) 149637881224866786382209843859 (n l 149637881224866786382679605645 l)) 149637881224867912286696866182 (n (n l 149637881224867912286696866191 l) 149637881224868475232120439449 (n l 149637881224869601132228608415 l))) 149637881224871571461394104979 (n (n (n l 149637881224873260311254368646 l) 149637881224932933005914374795 (n l 149637881224935747751436845715 l)) 149637881224935747751755612557 (n (n l 149637881224935747755882807955 l) 149637890669590744922530742937 (n l 149637890669591307872249283219 l))))) 149637890669591307872383500678 (n (n (n (n (n l 149637890669591307872551272838 l) 149637890669591307872953926031 (n l 149637890669591307873054589593 l)) 149637890669593278201314115974 (n (n l 149637890669594404101522948755 l) 149637890669596092951014113727 (n l 149637890669596092951081222534 l))) 149637890669596655897393987981 (n (n (n l 149637890669597218846860870297 l) 149637890669598907696754688447 (n l 149637890669598907696788242829 l)) 149637890669599752121751929247 (n (n l 149637890669600878025987293583 l) 149637890669602285396408107437 (n l 149637890669665898741278933380 l)))) 149637890669668713490693718404 (n (n (n (n l 149637890669668713490978931078 l) 149637890669668713495273898406 (n l 149637900114323710661586289039 l)) 149637900114323710661686952595 (n (n l 149637900114323710661754061220 l) 149637900114323710661921833348 (n l 149637900114323710665898033549 l))) 149637900114325399511933092249 (n (n (n l 149637900114329058690371649926 l) 149637900114331310486561456793 (n l 149637900114331873440172310937 l)) 149637900114332436385998537363 (n (n l 149637900114332436386132754829 l) 149637900114332436386317304196 (n l 149637900114332717860690035108 l)))))) 149637900114332717860790698381 (n (n (n (n (n (n l 149637900114332717861696668068 l) 149637900114332717865169552019 (n l 149637900114334406710801957529 l)) 149637900114340317685212217995 (n (n l 149637900114398301530515276429 l) 149637900114398864480569360772 (n l 149637900114399990380224545188 l))) 149637900114399990380409094534 (n (n (n l 149637900114399990380442648975 l) 149637900114399990380509757830 (n l 149637900114399990380643975567 l)) 149637900114399990380727861636 (n (n l 149637900114399990380761416070 l) 149637900114399990380794970500 (n l 149637900114399990380811747987 l)))) 149637900114399990381147292307 (n (n (n (n l 149637900114399990384402071940 l) 149637900114399990384536289939 (n l 149637900114401679230168695179 l)) 149637900114401679230168695215 (n (n l 149637900114401679230269358470 l) 149637900114401679230370021800 (n l 149637900114401679230705566116 l))) 149637900114401679230789452435 (n (n (n l 149637900114401679234564325773 l) 149637909559056113450990404030 (n l 149637909559057239350779806355 l)) 149637909559057239350813360787 (n (n l 149637909559057239350830138003 l) 149637909559057239350964355462 (n l 149637909559057239350997909892 l))))) 149637909559057239351031464601 (n (n (n (n (n l 149637909559057239351065018756 l) 149637909559057239351132127631 (n l 149637909559057239351165682052 l)) 149637909559057239351199236739 (n (n l 149637909559057239351249568134 l) 149637909559057239351283122564 (n l 149637909559057239351350231428 l))) 149637909559057239351434117508 (n (n (n l 149637909559057239354974110095 l) 149637909559057239355108327844 (n l 149637909559059772625754751641 l)) 149637909559059772625788305796 (n (n l 149637909559059772626107072902 l) 149637909559059772626140627332 (n l 149637909559059772626224513423 l)))) 149637909559059772630150382014 (n (n (n (n l 149637909559060898526114578827 l) 149637909559063150329870910099 (n l 149637909559064276225197572747 l)) 149637909559064839179429183878 (n (n l 149637909559065683600265675172 l) 149637909559065683600836100761 (n l 149637909559066809500642280089 l))) 149637909559068216875056071085 (n (n (n l 149637909559068498350754202046 l) 149637909559073001949525934468 (n l 149637909559073001949945364906 l)) 149637909559128171045162549913 (n (n l 149637909559129296945522377369 l) 149637909559131267270107693457 (n l 149637909559131830223802433958 l)))))))
def tJapanese011 : T := n tJapanese0110 149637871780127909668593042073 tJapanese0111
def tJapanese01 : T := n tJapanese010 149637838723561966631509000842 tJapanese011
def tJapanese0 : T := n tJapanese00 8919122325499269055115 tJapanese01
def tJapanese1000 : T := (n (n (n (n (n (n (n l 149637909559132956119447863955 l) 149637909559132956119565304196 (n l 149637909559132956119800185220 l)) 149637909559132956120051843731 (n (n l 149637909559132956120085398163 l) 149637909559132956120420942225 (n l 149637909559132956123877048708 l))) 149637909559132956123927380367 (n (n (n l 149637909559134644969341682052 l) 149637909559134644969425568132 (n l 149637909559134644969425568403 l)) 149637909559134644970029548179 (n (n l 149637919003789642140167143812 l) 149637919003789642140200698515 (n l 149637919003789642140368470663 l)))) 149637919003789642140435579268 (n (n (n (n l 149637919003789642140620128653 l) 149637919003791612464886677911 (n l 149637919003791612465876533665 l)) 149637919003791612469533966745 (n (n l 149637919003791612469533966987 l) 149637919003792738365565272723 (n l 149637919003798649339371553156 l))) 149637919003799775239211287170 (n (n (n l 149637919003799775239311950468 l) 149637919003801745568695550351 (n l 149637919003804278843485946276 l)) 149637919003805123264372769433 (n (n l 149637919003806249163994399108 l) 149637919003863107109424169625 (n l 149637919003864795963126415755 l))))) 149637919003865921858738291347 (n (n (n (n (n l 149637919003865921858989949318 l) 149637919003865921859023503748 (n l 149637919003865921859090612614 l)) 149637919003865921859124167044 (n (n l 149637919003865921863117144723 l) 149637919003867610708598555027 (n l 149637919003867610708984430989 l))) 149637919003867610709118648715 (n (n (n l 149637919003867610709118648727 l) 149637928448522044929604813465 (n l 149637928448522044933866226075 l)) 149637928448526830008638079400 (n (n l 149637928448530207703744872849 l) 149637928448530207703862313625 (n l 149637928448530770658010038662 l)))) 149637928448530770658060370579 (n (n (n (n l 149637928448531333603735601802 l) 149637928448531615078913639065 (n l 149637928448531615082856284819 l)) 149637928448533303932716548526 (n (n l 149637928448534429828546527897 l) 149637928448534429829184062105 (n l 149637928448534711307717542276 l))) 149637928448535555732614119814 (n (n (n l 149637928448593539573689320075 l) 149637928448594383998401348243 (n l 149637928448594383998434902675 l)) 149637928448594383998502011539 (n (n l 149637928448594383998619452051 l) 149637928448594383998720115347 (n l 149637928448594383998787224211 l)))))) 149637928448594383998820778374 (n (n (n (n (n (n l 149637928448594383998854332804 l) 149637928448594384002796978835 (n l 149637928448594384002830532996 l)) 149637928448595509902569603492 (n (n l 149637928448596072848647488139 l) 149637928448598887598280376710 (n l 149637928448598887598515257743 l))) 149637928448598887602424349331 (n (n (n l 149637928448600576448006423187 l) 149637928448600576448459408019 (n l 149637928448600576452167172542 l)) 149637928448600576452217504134 (n (n l 149637937893255010668895240857 l) 149637937893255573618697666948 (n l 149637937893255573619234537862 l)))) 149637937893256136568969855635 (n (n (n (n l 149637937893258669844011909508 l) 149637937893259795747928506756 (n l 149637937893261484597386117771 l)) 149637937893264299343026029194 (n (n l 149637937893267677043082101401 l) 149637937893269365897136669322 (n l 149637937893270210322066801062 l))) 149637937893270210322066801291 (n (n (n l 149637937893271054746996933267 l) 149637937893329038587904361097 (n l 149637937893330164487978975656 l)) 149637937893333542187145855635 (n (n l 149637937893333542187464622739 l) 149637937893333542187699503528 (n l 149637937893333542188102156678 l))))) 149637947337988539358038426020 (n (n (n (n (n l 149637947337988539358239752857 l) 149637947337988539362283061638 (n l 149637947337991072633365693075 l)) 149637947337994450332750676633 (n (n l 149637947337997265082316456335 l) 149637947337997265082417119891 (n l 149637947337997265082450674084 l))) 149637947337997546557947478681 (n (n (n l 149637947337997546561420362116 l) 149637947337997546561571357092 (n l 149637947338000361307714585241 l)) 149637947338000642782640964249 (n (n l 149637947338001487211496964749 l) 149637947338004020486287360429 (n l 149637947338060034002458477196 l)))) 149637947338064819076676682116 (n (n (n (n l 149637947338064819076760568455 l) 149637947338064819076894785924 (n l 149637947338064819076928340613 l)) 149637947338064819076961894788 (n (n l 149637947338064819076995449220 l) 149637947338064819077029003929 (n l 149637947338064819077062558095 l))) 149637947338064819077179998596 (n (n (n l 149637947338064819077213553030 l) 149637947338064819077280661901 (n l 149637947338064819077297439379 l)) 149637947338064819080870986387 (n (n l 149637947338064819080904540559 l) 149637947338064819080938094982 (n l 149637947338064819080971649414 l)))))))
def tJapanese1001 : T := (n (n (n (n (n (n (n l 149637947338066507926989930895 l) 149637947338066507931016462985 (n l 149637956782722068047416492697 l)) 149637956782722068047483601555 (n (n l 149637956782722068047802368659 l) 149637956782722068047936586393 (n l 149637956782722068051409470099 l))) 149637956782722631001379668398 (n (n (n l 149637956782723475426695676292 l) 149637956782725164276555940237 (n l 149637956782725727222281503123 l)) 149637956782726290176462782852 (n (n l 149637956782728541971813728921 l) 149637956782730230821606883987 (n l 149637956782730230821707547044 l)))) 149637956782730230821741101446 (n (n (n (n l 149637956782730230821875319443 l) 149637956782730512296533262995 (n l 149637956782732201146393526923 l)) 149637956782735297371992982169 (n (n l 149637956782736986225577787791 l) 149637956782736986225577788045 (n l 149637956782792436795738128776 l))) 149637956782792999741715350146 (n (n (n l 149637956782794970067105972865 l) 149637956782797784816017441156 (n l 149637956782797784816118104452 l)) 149637956782797784816218767780 (n (n l 149637956782797784816889856659 l) 149637966227454470836501840531 (n l 149637966227454470836535394963 l))))) 149637966227454470836568949133 (n (n (n (n (n l 149637966227454470836602503558 l) 149637966227454470836719944339 (n l 149637966227454470836887716260 l)) 149637966227454470836921270662 (n (n l 149637966227454470837072265604 l) 149637966227454470837139374468 (n l 149637966227454470837189706148 l))) 149637966227454470837206483334 (n (n (n l 149637966227454470837223260819 l) 149637966227454470837323923846 (n l 149637966227454470837374255763 l)) 149637966227454470840746476179 (n (n l 149637966227454470840796807565 l) 149637966227454470840863916422 (n l 149637966227454470840981357203 l)))) 149637966227456159690791289483 (n (n (n (n l 149637966227457004112063988377 l) 149637966227457567061530870419 (n l 149637966227458692965447467405 l)) 149637966227460381811230868107 (n (n l 149637966227462070660990468486 l) 149637966227464603935730533003 (n l 149637966227466292785842454975 l))) 149637966227468263115007951507 (n (n (n l 149637966227469107539938083467 l) 149637966227469951964868215174 (n l 149637966227470796385402716825 l)) 149637966227525684005609636237 (n (n l 149637966227526528430892089732 l) 149637966227528217284745331078 (n l 149637966227528780234900079016 l)))))) 149637966227529061705850257832 (n (n (n (n (n (n l 149637966227530750555291091603 l) 149637966227530750555408532115 (n l 149637966227530750555442086553 l)) 149637966227530750555475640979 (n (n l 149637966227530750555609858447 l) 149637966227530750555643412868 (n l 149637966227530750555760853380 l))) 149637966227530750555794407814 (n (n (n l 149637966227530750555844739731 l) 149637966227530750555895071110 (n l 149637966227530750556163506596 l)) 149637966227530750559435063684 (n (n l 149637966227532439405570785683 l) 149637966227532439409278550667 (n l 149637966227532439409597317537 l)))) 149637966227532439409597317546 (n (n (n (n l 149637966227532439409597317773 l) 149637966227532439409597317775 (n l 149637975672187436576077480324 l)) 149637975672189969854894408070 (n (n l 149637975672195599350217540228 l) 149637975672200384429066256774 (n l 149637975672259775644840460676 l))) 149637975672260338594793882007 (n (n (n l 149637975672261183024035758470 l) 149637975672261464495271150233 (n l 149637975672263716294933840260 l)) 149637975672263716298742268303 (n (n l 149637989839286885185180893601 l) 149637989839287448135402750611 (n l 149637989839288855513994068619 l))))) 149637989839291107314025857414 (n (n (n (n (n l 149637989839294485009166205579 l) 149637989839295892384301417113 (n l 149637989839295892388629938575 l)) 149637989839297018288134128267 (n (n l 149637989839300677463234019737 l) 149637989839358098354288689540 (n l 149637989839360913104525558425 l))) 149637989839360913104592667023 (n (n (n l 149637989839362039007771066798 l) 149637999284019850924118999699 (n l 149637999284019850924236439940 l)) 149637999284019850924269994383 (n (n l 149637999284019850924303548836 l) 149637999284019850924404212100 (n l 149637999284019850924471320964 l)))) 149637999284019850924622316185 (n (n (n (n l 149637999284019850924706201988 l) 149637999284019850924890751635 (n l 149637999284021539774063149708 l)) 149637999284022384199412711814 (n (n l 149637999284022947149533905561 l) 149637999284024635998840521369 (n l 149637999284028013702688244102 l))) 149637999284031672873811935881 (n (n (n l 149637999284033643198330143385 l) 149637999284094160318641701529 (n l 149637999284095004743253066135 l)) 149637999284096130642706924179 (n (n l 149637999284096130642824364420 l) 149637999284096130642891473561 (n l 149637999284096130642925027987 l)))))))
def tJapanese100 : T := n tJapanese1000 149637947338064819081038758276 tJapanese1001
def tJapanese1010 : T := (n (n (n (n (n (n (n l 149637999284096130643059245446 l) 149637999284096130643277349261 (n l 149637999284096130643310903686 l)) 149637999284096130643344458116 (n (n l 149637999284096130646951559588 l) 149637999284097819497113813409 (n l 149637999284097819497113813647 l))) 149638008728755349938199822986 (n (n (n l 149638008728755912888623006355 l) 149638008728760979441945117062 (n l 149638008728761542387771343507 l)) 149638008728763512712490877579 (n (n l 149638008728764638612615823806 l) 149638008728764920091954610585 (n l 149638008728826281632297353867 l)))) 149638008728829096382114791844 (n (n (n (n l 149638008728830785231824060804 l) 149638018173485782402716631439 (n l 149638018173485782402850849158 l)) 149638018173485782402917958279 (n (n l 149638018173485782402985067155 l) 149638018173485782403018621318 (n l 149638018173487752732083454340 l))) 149638018173489441581943718539 (n (n (n l 149638018173494508127481201030 l) 149638018173496478451814859159 (n l 149638018173496759930952319406 l)) 149638018173499574676910998169 (n (n l 149638018173502107951248408973 l) 149638018173502389426678104729 (n l 149638018173556995576085840267 l))))) 149638018173559247372292424345 (n (n (n (n (n l 149638018173559247372342755993 l) 149638022895854235601728668070 (n l 149638022895854798547806552729 l)) 149638022895855361497306988991 (n (n l 149638022895855361497961300627 l) 149638022895855924451588932235 (n l 149638022895858739200970162606 l))) 149638022895860990996740538756 (n (n (n l 149638022895860990996774093190 l) 149638022895860990996807647891 (n l 149638022895860990996874756486 l)) 149638022895860990996908310925 (n (n l 149638022895860990997092860292 l) 149638022895927419091630129802 (n l 149638022895928544991251759501 l)))) 149638022895928544991352422790 (n (n (n (n l 149638022895928544991385977220 l) 149638022895928544991503417732 (n l 149638022895928544991587303823 l)) 149638022895928544991755076250 (n (n l 149638022895928544991906071178 l) 149638022895928544995177628036 (n l 149638022895928544995295068550 l))) 149638027618221844370894848650 (n (n (n l 149638027618221844371280724358 l) 149638032340584668061799514777 (n l 149638032340588327236731634052 l)) 149638032340588327240925938075 (n (n l 149638032340589453136571368089 l) 149638032340590016086357017241 (n l 149638032340592830840553308819 l)))))) 149638032340593956736131629715 (n (n (n (n (n (n l 149638032340599023285846639257 l) 149638032340600712139901206918 (n l 149638032340601556564663566743 l)) 149638032340656162706118902148 (n (n l 149638032340660384830601790105 l) 149638032340661510730223420042 (n l 149638032340661510730324083095 l))) 149638032340661510730340860563 (n (n (n l 149638032340661510730374414995 l) 149638032340661510730407969433 (n l 149638032340661510730508632729 l)) 149638032340661510730827399833 (n (n l 149638032340661510730995171994 l) 149638032340661510731196498340 (n l 149638032340661510734652604804 l)))) 149638037062951713881532367513 (n (n (n (n l 149638037062953684210664309145 l) 149638037062954247156607975871 (n l 149638037062958750760245100943 l)) 149638037062958750760245101184 (n (n l 149638037062959313706524311942 l) 149638037062963817309825892761 (n l 149638037062966350584616288907 l))) 149638037062967195009546420875 (n (n (n l 149638037062968320909067387310 l) 149638037063025178850101526956 (n l 149638037063025178850789392787 l)) 149638037063025460329339650478 (n (n l 149638037063025460329406759309 l) 149638041785318196751043363475 (n l 149638041785318196751076917913 l))))) 149638041785318196751144026771 (n (n (n (n (n l 149638041785318196751177580932 l) 149638041785318196751211135635 (n l 149638041785318196751244689798 l)) 149638041785318196755254444452 (n (n l 149638041785321292975887843973 l) 149638041785322418876298003097 (n l 149638041785323544775634420377 l))) 149638041785326359526139724196 (n (n (n l 149638041785326922475220730255 l) 149638041785326922475254284938 (n l 149638041785326922475287839140 l)) 149638041785326922475321393811 (n (n l 149638041785326922475354947974 l) 149638041785326922475388502675 (n l 149638041785326922475422057107 l)))) 149638041785326922475556274596 (n (n (n (n l 149638041785326922475673715347 l) 149638041785327203950180663955 (n l 149638041785327203954727289229 l)) 149638041785328892800712016537 (n (n l 149638041785329174275034415744 l) 149638041785389128445073785222 (n l 149638041785394476469580956036 l))) 149638041785394476469614510739 (n (n (n l 149638041785394476469631287695 l) 149638041785394476469832614531 (n l 149638041785394476469866168710 l)) 149638041785394476470084272516 (n (n l 149638041785394476470117826967 l) 149638041785394476470218490246 (n l 149638041785394476470235267738 l)))))))
def tJapanese1011 : T := (n (n (n (n (n (n (n l 149638041785394476473892700819 l) 149638041785394476473959809683 (n l 149638041785396165319340556676 l)) 149638041785396165319374111115 (n (n l 149638041785396165319374111119 l) 149638041785396165319491551882 (n l 149638041785396165319692878471 l))) 149638041785396446798897447329 (n (n (n l 149638041785396446798897447332 l) 149638055952421867484445114765 (n l 149638055952425245188359946637 l)) 149638055952425245188779377290 (n (n l 149638055952426371084290589079 l) 149638055952426652559166636697 (n l 149638055952426652563377717638 l)))) 149638055952430593213034889606 (n (n (n (n l 149638055952430593213336879503 l) 149638055952433970912889635466 (n l 149638055952491391808004391302 l)) 149638055952492236232917746061 (n (n l 149638055952493925078566928783 l) 149638055952493925078667592100 (n l 149638055952493925078701146771 l))) 149638055952493925078768255621 (n (n (n l 149638055952493925078868918662 l) 149638055952495895407833088417 (n l 149638070119517093968730096033 l)) 149638070119517656918868066692 (n (n l 149638070119517656919035839123 l) 149638070119517656919253942662 (n l 149638070119522441993405039257 l))))) 149638070119522441997901332927 (n (n (n (n (n l 149638070119523567893345436313 l) 149638070119525256747366449542 (n l 149638070119525819693092012452 l)) 149638070119525819693226230159 (n (n l 149638070119530041821970530694 l) 149638070119593373687385129357 (n l 149638070119593373687703896484 l))) 149638070119593373687804559750 (n (n (n l 149638084286616542577598628499 l) 149638084286616542577732846227 (n l 149638084286616542577883840902 l)) 149638084286616542577950950019 (n (n l 149638084286616542578018058660 l) 149638084286616542578085167503 (n l 149638084286616542578202608275 l)))) 149638084286616542578320048548 (n (n (n (n l 149638084286619075852540019353 l) 149638084286692822296438211219 (n l 149638084286692822296605983108 l)) 149638084286692822296773755268 (n (n l 149638084286694511150727660170 l) 149638098453716554136772903311 (n l 149638098453716554136940675462 l))) 149638098453716554137443991942 (n (n (n l 149638098453716554140782658195 l) 149638098453716554140916875684 (n l 149638098453718524465703518598 l)) 149638098453721339215470625158 (n (n l 149638098453724716911298839187 l) 149638098453792270905575178660 (n l 149638098453792270909551378831 l)))))) 149638098453793959755267670675 (n (n (n (n (n (n l 149638112620815439796157776289 l) 149638112620817410120726315659 (n l 149638112620817410124987728523 l)) 149638112620820787824708256385 (n (n l 149638112620821913724615099019 l) 149638112620826135845440553625 (n l 149638112620888060339712918169 l))) 149638112620890030668626755979 (n (n (n l 149638112620891719514309493401 l) 149638112620891719514343047588 (n l 149638112620891719514829586827 l)) 149638117343183892994632941967 (n (n l 149638117343187833639726711435 l) 149638117343190929864520860299 (n l 149638117343190929864621523595 l)))) 149638117343192055768554898059 (n (n (n (n l 149638117343193463143572669067 l) 149638117343253980259404710553 (n l 149638117343255669113392169359 l)) 149639028759916775686019449491 (n (n l 149639028759918464531953844889 l) 149639028759919027482007929497 (n l 149639028759921279285311275398 l))) 149639028759923812556108693892 (n (n (n l 149639028759986581475881615757 l) 149639028759986862954918412678 (n l 149639033482279599376286581395 l)) 149639033482279599376353690259 (n (n l 149639033482279599376387244691 l) 149639033482279599376437576079 (n l 149639033482279599376605348228 l))))) 149639033482279599376739565958 (n (n (n (n (n l 149639033482279599380749320580 l) 149639033482279599380799652239 (n l 149639033482284384455571505561 l)) 149639033482287199205338612132 (n (n l 149639033482355879095159718535 l) 149639033482355879095394599309 (n l 149639038204649178471279591821 l))) 149639038204654245024735920787 (n (n (n l 149639038204656215349774221963 l) 149639047649383833060178624900 (n l 149639047649392840263761887883 l)) 149639057094112576675372040857 (n (n l 149639057094112576678744260996 l) 149639057094117361753415451044 (n l 149639057094120176503149003151 l)))) 149639057094121583878401655435 (n (n (n (n l 149639057094122991252949664134 l) 149639057094124961578122183311 (n l 149639066538845542414108820121 l)) 149639066538846949789059482265 (n (n l 149639066538848075688966324612 l) 149639066538850327492705878406 (n l 149639066538919570332983722372 l))) 149639071261214558558477320857 (n (n (n l 149639071261214558558510875044 l) 149639071261214558558678647449 (n l 149639071261218499212546900367 l)) 149639075983580478478202667407 (n (n l 149639075983580478478303330724 l) 149639075983650847222128673418 (n l 149639075983650847222212559507 l)))))))
def tJapanese101 : T := n tJapanese1010 149638041785394476473758482820 tJapanese1011
def tJapanese10 : T := n tJapanese100 149637999284096130642992136580 tJapanese101
def tJapanese1100 : T := (n (n (n (n (n (n (n l 149639075983654224922067305113 l) 149639080705944428072990376324 (n l 149639080705944428073057485188 l)) 149639080705944428073091039897 (n (n l 149639080705944428073158148493 l) 149639085428310910942534926995 (n l 149639085428310910942568481433 l))) 149639085428310910942803362180 (n (n (n l 149639085428310910943021465990 l) 149639085428387190661072519556 (n l 149639085428387190661324177796 l)) 149639085428387190661357732499 (n (n l 149639085428387190661391286660 l) 149639085428387190665484927375 (n l 149639090150677956762267779737 l)))) 149639090150677956762435551631 (n (n (n (n l 149639090150680490036923957913 l) 149639090150682741840931946916 (n l 149639090150753673530902282905 l)) 149639090150753673531472708250 (n (n l 149639099595412329880485069246 l) 149639099595412329880619287179 (n l 2510506183582024207929835942616203913 l))) 2510506183582028930297444711799161491 (n (n (n l 2510506183582057264490149480551907743 l) 2510506183582085598765044941967294854 (n l 2510506183582095043498010676895646347 l)) 2510506183582123377626539154716459659 (n (n l 2510506183582123377692685770971906440 l) 2510506183582142267090218833550737807 (n l 2510506183582156434196422838588768907 l))))) 2510506183582269771051965879257629081 (n (n (n (n (n l 2510506183583228411381841797910332057 l) 2510506183583228411383530651696464523 (n l 2510506183583275635042729849017041284 l)) 2510506183583275635047233448644412051 (n (n l 2510506342038320902260176861786243481 l) 2510506342038372848297680877371228819 (n l 2510506342038382293028957766801392042 l))) 2510506342038401182499111365704384900 (n (n (n l 2510506342038410627293720128887423366 l) 2510506342038410627293720128920977798 (n l 2510506342038410627293720129055195787 l)) 2510506342038429516682808935286276761 (n (n l 2510506342038438961415211728297492870 l) 2510506342038448406153525492346749577 (n l 2510506342038457850954326700688900486 l)))) 2510506342038467295618894020638638739 (n (n (n (n l 2510506342038467295629027120152543622 l) 2510506342039529828074161991426736779 (n l 2510506342039558162274185109204861345 l)) 2510506342039600663574782735523479942 (n (n l 2510506500494678987361269010808406667 l) 2510506500494697876886028754874499498 (n l 2510506500494716766356463833200165273 l))) 2510506500494782879408692494092960155 (n (n (n l 2510506500494782879411225769051128463 l) 2510506500494792324149821003295589003 (n l 2510506500494797046511800273565090180 l)) 2510506500494825380713512245532000655 (n (n l 2510506500494877326816881401238094489 l) 2510506500495878468436377426647548321 (n l 2510506500495883190799201117166338713 l)))))) 2510506500495925692108242997517451654 (n (n (n (n (n (n l 2510506658950970959312460686079263110 l) 2510506658950970959323719685449679507 (n l 2510506658951230689467048188356821389 l)) 2510506658952250720630444260141007245 (n (n l 2510506658952250720632133109665726854 l) 2510506658952250720633259009908113828 (n l 2510506658952250720634947859466387846 l))) 2510506817407295987840572919086547595 (n (n (n l 2510506817407305432586205036758139268 l) 2510506817407338489214916990024778118 (n l 2510506817407385712879745685990376089 l)) 2510506817407385712879745686124593811 (n (n l 2510506817407423491735610403936502148 l) 2510506817407423491811608647296057739 (n l 2510506817407456548376988730635026833 l)))) 2510506817407465993037333930078077358 (n (n (n (n l 2510506817407465993042681950692934020 l) 2510506817407499049675334557609722515 (n l 2510506817408495468925251484486173337 l)) 2510506817408504913730837767969276569 (n (n l 2510506817408523803139629830153404825 l) 2510506817408528525566911290573816473 (n l 2510506817408575749157430597368643983 l))) 2510506817408575749163060096902857363 (n (n (n l 2510506817408575749163623046520734086 l) 2510506896635458502109414116687053459 (n l 2510506896635732399374427755364188563 l)) 2510506896636653260897415601766761107 (n (n l 2510506896636686317389049246056153753 l) 2510506896636766597618695079517717139 (n l 2510506896636766597618695079551271302 l))))) 2510506896636766597618695080172028301 (n (n (n (n (n l 2510506896636766597618695083678466436 l) 2510506896636766597625731958364668294 (n l 2510506896636766597626857857969521030 l)) 2510506896636766597627420803829301638 (n (n l 2510506896636766597627420803862856339 l) 2510507055091816587273275181187170947 (n l 2510507055091835476675030369406517898 l))) 2510507055091835476736391909900255897 (n (n (n l 2510507055091844921472172399125561732 l) 2510507055091863810935289127704429209 (n l 2510507055091972425295152289769816471 l)) 2510507055092000759567795947210768772 (n (n l 2510507055093063291953821077721023111 l) 2510507055093091626156095991152083594 (n l 2510507055093091626223649985076101773 l)))) 2510507213548118003896352530432754323 (n (n (n (n l 2510507213548188839402602774365700522 l) 2510507213548236063133296611006055051 (n l 2510507213548259674962333259410932377 l)) 2510507213548278564354236819502760595 (n (n l 2510507213548387178782216925344924059 l) 2510507213548387178790379695760441995 (n l 2510507213549317484983001415988511367 l))) 2510507213549341096826956242588238475 (n (n (n l 2510507213549416654676608403814711684 l) 2510507213549416654676608403881820809 (n l 2510507213549416654684771178105766538 l)) 2510507213549416654752325172281442963 (n (n l 2510507213549416654752325172616987012 l) 2510507372004461921961609414870008238 (n l 2510507372004523312656362401396130432 l)))))))
def tJapanese1101 : T := (n (n (n (n (n (n (n l 2510507372004603592894452484712661401 l) 2510507372004664983724594930120884612 (n l 2510507372005713349009482602036560531 l)) 2510507372005713349011171451561279878 (n (n l 2510507372005741683207253915840250515 l) 2510507372005741683207253915957690788 (n l 2510507372005741683207253919648678287 l))) 2510507372005741683209505719814685060 (n (n (n l 2510507372005741683209505719814685331 l) 2510507372005741683213727844247241092 (n l 2510507372005741683214853744372187535 l)) 2510507372005741683220201768929689999 (n (n l 2510507372005741683281000359671333254 l) 2510507530460758616230588789503001000 (n l 2510507530460768060960739779026321798 l)))) 2510507530460876675387312506075840934 (n (n (n (n l 2510507530460909731957196193219707539 l) 2510507530460928621412994572638978697 (n l 2510507530460938066148212111743091114 l)) 2510507530460975845084860139180360345 (n (n l 2510507530461018346452167339391812235 l) 2510507530461948652573857365958558099 (n l 2510507530462038377539846638649180550 l))) 2510507530462038377542098438798410150 (n (n (n l 2510507530462038377547446463355912619 l) 2510507530462038377549979738163085971 (n l 2510507530462066711733958777822740868 l)) 2510507530462066711733958777990513028 (n (n l 2510507530462066711733958778527383942 l) 2510507530462066711733958778577715859 (n l 2510507530462066711735366157135479204 l))))) 2510507530462066711749721376652755594 (n (n (n (n (n l 2510507688917126146122630522715996550 l) 2510507688917182814520424954230702731 (n l 2510507688917230038109818361152242063 l)) 2510507688917234760479115980866552467 (n (n l 2510507688917234760481367776754369177 l) 2510507688917234760490093500310979202 (n l 2510507688917300873682496695562371460 l))) 2510507688917362264376405261101007500 (n (n (n l 2510507688918363406065707075936420239 l) 2510507688918391740262071014806225293 (n l 2510507688918391740262071015192101263 l)) 2510507688918391740270796739436577158 (n (n l 2510507688918391740271078214094520979 l) 2510507688918391740338350733746471559 (n l 2510507847373399228546810645936570790 l)))) 2510507847373588123203873636058628748 (n (n (n (n l 2510507847373611735111723273513304714 l) 2510507847374612876731219295298879878 (n l 2510507847374612876732908148883685764 l)) 2510507847374612876736285848302223750 (n (n l 2510507847374612876736848794061341331 l) 2510507847374617599097702164340114055 (n l 2510507847374622321464185034387980687 l))) 2510507847374622321469814533586649485 (n (n (n l 2510507847374622321534553778565644953 l) 2510507847374631766194617498284032388 (n l 2510507847374631766197150773409972623 l)) 2510507847374631766202780272709304979 (n (n l 2510507847374631766204187652022043014 l) 2510507847374641210941656990939841163 (n l 2510507847374716768798346030845493636 l)))))) 2510507847374716768800879305635889542 (n (n (n (n (n (n l 2510507847374716768804538480333128339 l) 2510507847374716768861677896276869767 (n l 2510507847374716768863085271160423059 l)) 2510508005829743146538602565965414799 (n (n l 2510508005829743146541980265685942692 l) 2510508005829762036012696818870878858 (n l 2510508005829832871577775328607830404 l))) 2510508005831013463126998100155269779 (n (n (n l 2510508005831013463136005299426787718 l) 2510508005831041797328147113511715466 (n l 2510508005831041797332369242188906886 l)) 2510508164286049285613168223494308489 (n (n l 2510508164286058730336000863623152275 l) 2510508164286091786897721771912561299 (n l 2510508164286205123695843922348835215 l)))) 2510508164286205123705414071942873747 (n (n (n (n l 2510508164286209846066830391990518159 l) 2510508164286209846067393341943939731 (n l 2510508164286209846069363666780914323 l)) 2510508164286209846073585791431574163 (n (n l 2510508164287338491652858537476063891 l) 2510508164287338491657362136801444230 (n l 2510508164287338491661302786794160516 l))) 2510508164287366825924376294657851791 (n (n (n l 2510508164287366825924376294943064729 l) 2510508164287366825924376295513490073 (n l 2510508322742393203601582439675429523 l)) 2510508322742511262834022920906572427 (n (n l 2510508322742553764056370508078482063 l) 2510508322742553764063407382496248457 (n l 2510508322743611574148533304344937113 l))))) 2510508322743663520182659624470806916 (n (n (n (n (n l 2510508322743663520184911424284492175 l) 2510508322743663520186037323889344902 (n l 2510508322743691854453051482551059097 l)) 2510508481198708787392788287845532038 (n (n l 2510508481198708787394477137705795972 l) 2510508481198708787397854837124333958 (n l 2510508481198708787463438506697916815 l))) 2510508481198798512357651660964856467 (n (n (n l 2510508481198826846553734129069032076 l) 2510508481198836291362698107742814596 (n l 2510508481198845736029798706811470250 l)) 2510508481198888237328144533618393503 (n (n l 2510508481199969659311549952286753419 l) 2510508481199988548719497585900094099 (n l 2510508481200016882905446950530941325 l)))) 2510508481200016882905446950631604612 (n (n (n (n l 2510508481200016882914172674574090628 l) 2510508481200016882914172674909634948 (n l 2510508481200016882981726668833653156 l)) 2510508481200016882981726669253083524 (n (n l 2510508481200016882981726669555073444 l) 2510508481200016882981726673296392612 (n l 2510508639655095206682644551282426521 l))) 2510508639655123540955288217044877702 (n (n (n l 2510508639655184931651167103393956487 l) 2510508639655279378975476467479315091 (n l 2510508639655312435550989658418807437 l)) 2510508639656228574638533266385371801 (n (n l 2510508639656252186544694062250951055 l) 2510508639656271075938849422072578495 (n l 2510508877339700808639699402176561803 l)))))))
def tJapanese110 : T := n tJapanese1100 2510507372004584703421765606690751111 tJapanese1101
def tJapanese1110 : T := (n (n (n (n (n (n (n l 2510508877339795256040851435155587460 l) 2510509035795846387253003066536067462 (n l 2510509035795846387255536341628453254 l)) 2510509035795983335870028762457538948 (n (n l 2510509035795997502969477371393180047 l) 2510509035795997502976514245810946445 (n l 2510509035795997502982988170275291526 l))) 2510509035796035281902466228461732228 (n (n (n l 2510509035796077783275684394610950797 l) 2510509035796106117406746147557704077 (n l 2510509035796125006867892551534477707 l)) 2510509035796125006934602116585718425 (n (n l 2510509035797126148561135016412938639 l) 2510509035797126148570705165637878409 (n l 2510509035797154482764535829985723034 l)))) 2510509035797154482767069104172138888 (n (n (n (n l 2510509035797154482832089823641305508 l) 2510509194252180860504229418742546822 (n l 2510509194252180860572627833922486937 l)) 2510509194252213917077209330965774733 (n (n l 2510509194252223361805389995316576646 l) 2510509194252223361814678669883572644 (n l 2510509194252261140804806942694539923 l))) 2510509194252317809132232638453744006 (n (n (n l 2510509194252322531502656158108451475 l) 2510509194252322531507159757400277382 (n l 2510509194252341420973935656666628747 l)) 2510509194252341421040082276344627851 (n (n l 2510509194253370896862979119252734369 l) 2510509194253479511285048242145034899 (n l 2510509194253479511285048242212143769 l))))) 2510509352708567279795211582673486489 (n (n (n (n (n l 2510509352708647560096915010474967487 l) 2510509352708680616594459632899162536 (n l 2510509352709757316158464882643272345 l)) 2510509352709757316160435211355783818 (n (n l 2510509431936658958563713510466093471 l) 2510509431936805351928060168886256015 (n l 2510509431937872606748403629755171475 l))) 2510509431937896218656534747035173507 (n (n (n l 2510509431937938719882260034179269267 l) 2510509431937938719884511833992954246 (n l 2510509511164821472829176999420592793 l)) 2510509511165095370083213114626769561 (n (n l 2510509511166101234151101226981491087 l) 2510509590393083156790780759917167001 (n l 2510509590393102046267126812636316299 l)))) 2510509590393135102824907075781624198 (n (n (n (n l 2510509590393215383126047549653483919 l) 2510509590394263748415438820525441423 (n l 2510509590394263748421068320428753316 l)) 2510509590394263748481022490166133126 (n (n l 2510509669621174835562660383386993086 l) 2510509669621217336854532285729571466 (n l 2510509669621283449998240305647944345 l))) 2510509748849455408988225292795609478 (n (n (n l 2510509748849455408995543642542408070 l) 2510509748849540411654722740700807575 (n l 2510509748849587635243553193709502861 l)) 2510509748850560442737616961075905171 (n (n l 2510509748850588776938484508146237830 l) 2510509748850588776943551058029019795 (n l 2510509748850588776949743507516654227 l)))))) 2510509748850588776950587932463563411 (n (n (n (n (n (n l 2510509748850617111134285497213616787 l) 2510509748850621833508368191196463763 (n l 2510509986533947674146032093547954835 l)) 2510509986533966563609711772315124159 (n (n l 2510509986533976008354780931493692042 l) 2510509986534991317137620385233338775 (n l 2510509986535029096066105642674520490 l))) 2510509986535038540869158646870933951 (n (n (n l 2510509986535076319741067438305018515 l) 2510509986535104654000763246515290509 (n l 2510509986535109376303069821889905290 l)) 2510509986535109376303069821923459722 (n (n l 2510510224218336047241215761770054052 l) 2510510224219592196728473833171026319 (n l 2510510224219592196731007111954399622 l)))) 2510510224219592196797153727018664601 (n (n (n (n l 2510510224219592196797153727219990925 l) 2510510461902771644000102226537447812 (n l 2510510461902771644001791076397712019 l)) 2510510461904079739524864312869094029 (n (n l 2510510699587405580154646915822354831 l) 2510510699587429192060807704205296281 (n l 2510510937273026490908052011234853263 l))) 2510511016499998968889638143786189188 (n (n (n l 2510511016500107583242745906444075417 l) 2510511016501189005172389604778803599 (n l 2510526307535316998241965001685566083 l)) 2510526307535354777111340518178259595 (n (n l 2510526307535364221828262179685761412 l) 2510526307535364221906793701962908307 (n l 2510526386763437011132521478522896783 l))))) 2510526386763437011143780477893312932 (n (n (n (n (n l 2510526386764716772456978977048985990 l) 2510526465992879286718783295802540420 (n l 2510526624448023723626741071385690502 l)) 2510526624448070947296073367683302026 (n (n l 2510526624449133479746837734163186052 l) 2510526624449185425847392144330031492 (n l 2510526941360584055715850372587422086 l))) 2510526941360584055721479867876999827 (n (n (n l 2510526941360626557027144048658579846 l) 2510526941360645446555562971851096715 (n l 2510526941361826038102533935649227417 l)) 2510527020588789071277970843320418701 (n (n l 2510527099816951585543434336771211923 l) 2510527099818122732431186004623458947 (n l 2510527179045161323481607826022040211 l)))) 2510527258273224668053182856737030534 (n (n (n (n l 2510527258273267169343647384196055428 l) 2510527258274504429359907431092814214 (n l 2510527258274504429361596281288622479 l)) 2510527337501396627040353090409824915 (n (n l 2510527337501476907343182413756072585 l) 2510527337502666943632689274273628819 (n l 2510527495957801935871857601783497111 l))) 2510527495957811380601164169665020334 (n (n (n l 42119304511290798484645461128109052582396563 l) 42119304511291986907045396236182346495394443 (n l 42119304511311477034990848622977927203750334 l)) 42119304511311556263186419527567948025921926 (n (n l 42119307169748770758502284687172398385168772 l) 42119309828203811590478306590749773583843979 (n l 42119309828204286960577315385343086763934143 l)))))))
def tJapanese1111 : T := (n (n (n (n (n (n (n l 42119309828206663805509411715517128638693768 l) 42119309828223460174687396878458595066479001 (n l 42119315145115240133046699715603702225273482 l)) 42119315145115636273778990807082890221027718 (n (n l 42119315145115636274926525786421970598068650 l) 42119315145117616979060217964725393336533401 (n l 42119315145134809489178278274023568793895302 l))) 42119315145136235596112979765065991489552772 (n (n (n l 42119316474342760548916651458173592276271503 l) 42119316474345771219073304115039237031821719 (n l 42119316474364706749980326347048975142715782 l)) 42119316474364706749980326349863724943376774 (n (n l 42119316474364706751113694312507839537709707 l) 42119319132818876072055354684402259303039383 (n l 42119319132819272212749866839796361308897670 l)))) 42119319132820222950723649773611608915018393 (n (n (n (n l 42119319132820222951918408491244354816672409 l) 42119319132820698320879326977821307027292559 (n l 42119321791256407481131033019483422718132889 l)) 42119321791256882849086087450557168830612107 (n (n l 42119321791276689889624928493812459151524237 l) 42119321791276689890777185920980680916042127 (n l 42119324449713032876229836312523384450941594 l))) 42119324449732681459371671708394104872469139 (n (n (n l 42119324449732681459371671712334754546418323 l) 42119324449732681460608931737039051080040868 (n l 42119327108187643063100176814274098210505363 l)) 42119327108188673029170360949502237674275206 (n (n l 42119329766644664598992662025276519186924179 l) 42119329766644664598992662029780118478750086 (n l 42119329766644664598992662095363788085887366 l))))) 42119329766644664599143777751039497973498255 (n (n (n (n (n l 42119329766644664600234644413648931672785561 l) 42119332425100180799957936672311901298066073 (n l 42119332425100656170038056015891909495194247 l)) 42119332425100656170104169151437163460788867 (n (n l 42119335083534701538867517701441227770266265 l) 42119335083538108349935911371068552643838340 (n l 42119335083555617772680416830430414087881094 l))) 42119335083556647738656153650637859469886099 (n (n (n l 42119335083556647738887549672474762799186572 l) 42119337741991406162166614330293327868691091 (n l 42119337741993149180589670655220298237051326 l)) 42119337742012639309767660776798503760527750 (n (n l 42119337742012639309767660835063823553757583 l) 42119340400446684677473199227602896983130763 (n l 42119340400449219978546151865677803518394758 l)))) 42119340400468630879599406582723774444176019 (n (n (n (n l 42119343058902676247413559536943558912344729 l) 42119343058904340039855834909803966202348171 (n l 42119343058924622448151391061658272130105743 l)) 42119343058924622448151391072635795919831430 (n (n l 42119343058924622448241116100831038731944588 l) 42119343058924622448297784423190180716052879 (n l 42119343058924622448297784426004930516713892 l))) 42119343058924622449431152392026744865128838 (n (n (n l 42119345717379187911138160342530388345979539 l) 42119349705042813628129057927028115614433670 (n l 42119352363499993620351294034877442882240902 l)) 42119352363503241975014378800661184448266647 (n (n l 42119352363520117574819953528620499551355268 l) 42119352363520592942633336899061537652834707 (n l 42119352363520592943842262776941486704656783 l)))))) 42119355021976584513622062480060543649677977 (n (n (n (n (n (n l 42119355021976584513674008524601437527966346 l) 42119357680412769041757987455553356479824275 (n l 42119359009640923282928053390792563263504774 l)) 42119359009640923284066143635758525591028377 (n (n l 42119360338867492962137040011134735927706251 l) 42119361668098974786132705060656291780985482 (n l 42119364326553064879044077430014946870264198 l))) 42119364326572079638090002169101744936812941 (n (n (n l 42119364326572555006805357532704335777202564 l) 42119364326572555008085118840554810375373247 (n l 42119368314235943039388992481214568310473354 l)) 42119368314256542362832737564360890191675782 (n (n l 42119372301919455025303196665272567471506061 l) 42119372301940529717580356262271272150598031 (n l 42119372301940529717580356275782071049486726 l)))) 42119372301940608944472553948346430464950662 (n (n (n (n l 42119376289624517072327974974255402643063174 l) 42119376289624517072327974975944252805317015 (n l 42119380277308504425805277101784649223602823 l)) 42119385594201552034897034429288648802533764 (n (n l 42119643464430595149217968538364128115524235 l) 42119643464431387430843111238879479716872580 (n l 42119644793658590934053561196199802074006169 l))) 42119654098255195253816731680402016406045331 (n (n (n l 42119655427502047340140682902531306422501775 l) 42119656756730439265892739036438926192771721 (n l 42119658085937677272314877280488127126012307 l)) 706644714157542807468627361983803686330325514027428 (n (n l 706644714157550782837315124970003750440113031840385 l) 706644870262406951765770141468645823599661023462041 (n l 706644914864232314281637310689997072332575104795012 l))))) 706645004067246339102360707098522730430942954095012 (n (n (n (n (n l 706645004067246339104896009437069434199898721583769 l) 706645048668736736168202223496616846991534611202697 (n l 706645093270199219437258703848158184274178808709510 l)) 706645137871717530306302737697301374613025643004546 (n (n l 706645137871717530306461195269034588900659164316307 l) 706645227074690349060662139266613192545969889313415 (n l 706645316277310922380847500389002222944893104521642 l))) 706645316277679118531084688678858777716783946367629 (n (n (n l 706645360879140272597894535543287311333249838711449 l) 706645516984385905310575143601612430467466334012047 (n l 706645583886275901641129140884939996777339945189789 l)) 706645628487784907874984741092060126553445161468551 (n (n l 706645739991512229755462409694505864462246693012115 l) 706645940698546006618826053369147745745484489392781 (n l 706650378546473647285202300330179143709110070117003 l)))) 706650378546473647286549180410461883072602158891667 (n (n (n (n l 706650512350990032241238702655349080793683467665807 l) 11855534371979393729510218804692158483102241586590582538639 (n l 11855534371979393729510218804692158577549569273654220653203 l)) 11855534371979393729510218804692158634217975793814593569156 (n (n l 11855534371979393729510218804692159663693869340871975207555 l) 11855535868557070356329551694726895568526933008988846129811 (n l 11855535868557070356349490112207596348958598478820846829958 l))) 11855540358283967531943025109671893222702418153688757666182 (n (n (n l 11855541106578604039119595630378244613769336896921926861459 l) 11855541106578804745839674703533019615461112546730539451033 (n l 11855543725589738842865556332384495600816641763711222251908 l)) 11855548215322902527822660029994895152326631521864820949651 (n (n l 11855550460189417468116126930329630602759951276938463773337 l) 11855627533933631045692130014900406802595223066104014537103 (n l 198902973941953873108868549636078890754641742056095794537771008665 l)))))))
def tJapanese111 : T := n tJapanese1110 42119309828204445415702862903367627410997636 tJapanese1111
def tJapanese11 : T := n tJapanese110 2510508877339714975746184885529969069 tJapanese111
def tJapanese1 : T := n tJapanese10 149639075983650847222346776966 tJapanese11
def tJapanese : T := n tJapanese0 149637909559131830223970206347 tJapanese1

def tKorean0000 : T := (n (n (n (n (n (n (n (n l 149022542668444725994342942120 l) 2500182278023414740534765660179367592 l) 2500182278023414740535047135357404855 (n l 2500182278023414740535328610032125611 l)) 2500182278023414740535328610334115516 (n (n l 2500182278023414740535610085310826152 l) 2500182278023414740536454510157072055 (n l 2500182278023414740536735984915678908 l))) 2500182278023414740537298934869100220 (n (n (n l 2500182278023414740537298935171090103 l) 2500182278023414740537861885124511407 (n l 2500182278023414740537861885158065848 l)) 2500182278023414740538143359799232188 (n (n l 2500182278023414740538143359866341052 l) 2500182278023414740538143359933449896 (n l 2500182278023414740538143360017335976 l)))) 2500182278023414740690139842558920105 (n (n (n (n l 2500182278023414740690139842575697313 l) 2500182278023414740690984267421943214 (n l 2500182278023414740692110167328785845 l)) 2500182278023414740694361967025030581 (n (n l 2500182278023414740694361967176025513 l) 2500182278023414740694361967226357153 (n l 2500182278023414740695769341958915497 l))) 2500182278023414740695769342059578785 (n (n (n l 2500182278023414740695769342093133236 l) 2500182278023414740695769342109910438 (n l 2500182278023414740695769342109910441 l)) 2500182278023414740750938437528421813 (n (n l 2500182278023419462903218854560892604 l) 2500182278023419462903218854661555887 (n l 2500182278023419462903781804581422763 l))))) 2500182278023419462903781804581422780 (n (n (n (n (n l 2500182278023419462904344754803279531 l) 2500182278023433630003230413785499311 (n l 2500182278023433630003793363420153512 l)) 2500182278023433630003793363621480111 (n (n l 2500182278023433630004074838715631290 l) 2500182278023433630005482213481744055 (n l 2500182278023433630156915746086684073 l))) 2500182278023433630160293445756880289 (n (n (n l 2500182278023433630160293445874320809 l) 2500182278023438352370276233384134327 (n l 2500182278023443074736759102911907503 l)) 2500182278023443074889881485477774754 (n (n l 2500182278023443074891007385082627498 l) 2500182278023443074894666559779866024 (n l 2500182278023443074894666559779866025 l)))) 2500182278023443074894666559779866037 (n (n (n (n l 2500182278023443074894666559897306549 l) 2500182278023443074894666559964415406 (n l 2500182278023443074894666559981192614 l)) 2500182278023443074894666559981192622 (n (n l 2500182278023443074894666560014747061 l) 2500182278023447797100145747729417896 (n l 2500182278023447797100990172525332139 l))) 2500182278023447797101553122478753451 (n (n (n l 2500182278023447797102679022385596075 l) 2500182278023447797102679022519813800 (n l 2500182278023447797103241972372571816 l)) 2500182278023447797103523447382836911 (n (n l 2500182278023447797104086397571139260 l) 2500182278023447797105212297360541352 (n l 2500182278023452519466628617257191080 l)))))) 2500182278023452519466628617458517692 (n (n (n (n (n (n l 2500182278023452519466628617542403768 l) 2500182278023452519468317467436222123 (n l 2500182278023452519470006316960941756 l)) 2500182278023452519470006317028050603 (n (n l 2500182278023452519470006317296486072 l) 2500182278023452519471132217002002108 (n l 2500182278023452519471695166854760124 l))) 2500182278023452519623973124658267571 (n (n (n l 2500182278023452519627632299070293410 l) 2500182278023452519627632299070293429 (n l 2500182278023452519627632299187733934 l)) 2500182278023452519627632299221288353 (n (n l 2500182278023452519627632299288397217 l) 2500182278023452519627632299355506089 (n l 2500182278023457241834800336880109224 l)))) 2500182278023457241836207711964989103 (n (n (n (n l 2500182278023457241836489186606155452 l) 2500182278023457241836489186673264316 (n l 2500182278023457241838178036466419368 l)) 2500182278023457241989330094111425960 (n (n l 2500182278023457241989330094195312053 l) 2500182278023457241994115168715507113 (n l 2500182278023457241994115168916833710 l))) 2500182278023471408934248945899636395 (n (n (n l 2500182278023471408934530420792460968 l) 2500182278023471408935093370947208879 (n l 2500182278023471408935656320598640316 l)) 2500182278023471408935656320850298536 (n (n l 2500182278023471408935937795541796540 l) 2500182278023471408935937795877340840 (n l 2500182278023471408937063695582856892 l))))) 2500182278023471408937626645553055403 (n (n (n (n (n l 2500182278023471408937626645620164267 l) 2500182278023476131299042965567145660 (n l 2500182278023476131300450340652025527 l)) 2500182278023476131300731815393855164 (n (n l 2500182278023476131301013290404120239 l) 2500182278023476131301013290521560747 (n l 2500182278023476131301576240323987112 l))) 2500182278023476131301576240323987132 (n (n (n l 2500182278023476131301576240391095976 l) 2500182278023476131302139190310962856 (n l 2500182278023476131302139190545843896 l)) 2500182278023476131302983615207540412 (n (n l 2500182278023476131454417147762148769 l) 2500182278023476131454417147762148789 (n l 2500182278023476131454417147795703202 l)))) 2500182278023476131454417147913143726 (n (n (n (n l 2500182278023476131454417147946698149 l) 2500182278023476131454417147963475366 (n l 2500182278023476131454417148064138668 l)) 2500182278023476131455261572742612386 (n (n l 2500182278023476131455261572843275681 l) 2500182278023480853821744442421380533 (n l 2500182278023480853821744442522043825 l))) 2500182278023480853821744442605929902 (n (n (n l 2500182278023490298398491574620227240 l) 2500182278023490298401024849528063659 (n l 2500182278023495020768352143834973884 l)) 2500182278023495020768915094056830632 (n (n l 2500182278023499743132020263645972143 l) 2500182278023499743132020263679526588 (n l 2500182278023499743132020263947962031 l)))))))
def tKorean0001 : T := (n (n (n (n (n (n (n l 2500182278023499743132864688878094010 l) 2500182278023499743132864688911648439 (n l 2500182278023499743286831496290207157 l)) 2500182278023499743287675920918349221 (n (n l 2500182278023499743287675920918349229 l) 2500182278023499743287675921002235298 (n l 2500182278023499743287675921002235305 l))) 2500182278023499743287675921019012526 (n (n (n l 2500182278023499743287675921153230245 l) 2500182278023499743288801820992964021 (n l 2500182278023499743288801821026518433 l)) 2500182278023499743291053620638877097 (n (n l 2500182278023499743291053620840203701 l) 2500182278023509187864423052982978219 (n l 2500182278023509187864423053133973163 l)))) 2500182278023509187864986003037062839 (n (n (n (n l 2500182278023509187864986003238389436 l) 2500182278023509187865267478131214012 (n l 2500182278023509187865830428000749224 l)) 2500182278023509187865830428168521399 (n (n l 2500182278023509187866393377887061688 l) 2500182278023509187866393377954170539 (n l 2500182278023509187866393378038056619 l))) 2500182278023509187866674853098653367 (n (n (n l 2500182278023509187866956327991477935 l) 2500182278023509187867519277793904296 (n l 2500182278023509187867519277793904312 l)) 2500182278023509187867519277861013163 (n (n l 2500182278023509187867519277944899243 l) 2500182278023509187867519277961676459 (n l 2500182278023509187867800752770614952 l))))) 2500182278023509187867800752921609899 (n (n (n (n (n l 2500182278023509187868363702992471735 l) 2500182278023509187869489602697987755 (n l 2500182278023509187869489602748319400 l)) 2500182278023509188021767560300168629 (n (n l 2500182278023509188024019360164185525 l) 2500182436479739769065129697244972719 (n l 2500182436479739769068507397049386671 l))) 2500182436479739769220785354299245986 (n (n (n l 2500182436479739769220785354467018165 l) 2500182436479739769220785354517349793 (n l 2500182436479739769223037154146485671 l)) 2500182436479739769223037154213594530 (n (n l 2500182436479739769223037154314257825 l) 2500182436479739769224444529113925045 (n l 2500182436479744491430486666865903275 l)))) 2500182436479744491433019941756962492 (n (n (n (n l 2500182436479744491433019941891180207 l) 2500182436479744491589520023875585461 (n l 2500182436479744491589520023909139874 l)) 2500182436479763381056295927487235490 (n (n l 2500182436479777547996148229392664252 l) 2500182436479777547996711179312531112 (n l 2500182436479777547998400029407676075 l))) 2500182436479777548150677986858861985 (n (n (n l 2500182436479777548150677986925970858 l) 2500182436479777548151522411637999029 (n l 2500182436479777548152648311645504949 l)) 2500182436479777548156307486158194094 (n (n l 2500182436479777548156307486275634606 l) 2500182436479777548211758056754742709 (n l 2500182436479820049296745856080381608 l)))))) 2500182436479824771660413976092706487 (n (n (n (n (n (n l 2500182436479824771815506683126449570 l) 2500182515707902283329748765547529916 (n l 2500182515707902283330874665756362423 l)) 2500182515707902283332844990308124348 (n (n l 2500182515707902283483997047936353704 l) 2500182515707902283483997048120903077 (n l 2500182515707902283483997048120903089 l))) 2500182515707902283483997048171234726 (n (n (n l 2500182515707902283483997048171234734 l) 2500182515707902283485122947927082405 (n l 2500182515707902283485122947927082421 l)) 2500182515707902283487374747774322082 (n (n l 2500182515707902283487374747841430957 l) 2500182515707907005694824260309190333 (n l 2500182515707907005695105735285900984 l)))) 2500182515707907005695668685272876712 (n (n (n (n l 2500182515707907005695668685272876732 l) 2500182515707907005695668685524534952 (n l 2500182515707907005695950160434136747 l)) 2500182515707907005696794585481709227 (n (n l 2500182515707907005697357535401576124 l) 2500182515707907005697639010076296892 (n l 2500182515707907005697639010143405739 l))) 2500182515707907005697639010143405752 (n (n (n l 2500182515707907005697639010294400700 l) 2500182515707907005698201960046495400 (n l 2500182515707907005698201960247821999 l)) 2500182515707907005698201960247822012 (n (n l 2500182515707907005699327859936560808 l) 2500182515707907005699327860037224124 (n l 2500182515707940062260485822869505704 l))))) 2500182515707940062260485823020500648 (n (n (n (n (n l 2500182515707940062261330247732528828 l) 2500182515707940062262174672998205111 (n l 2500182515707940062262737622834185911 l)) 2500182515707940062262737622951626424 (n (n l 2500182515707940062263019097659901611 l) 2500182515707940062263019097810896572 (n l 2500182515707940062263582047546214056 l))) 2500182515707940062415015580318926245 (n (n (n l 2500182753392389826121354171597817519 l) 2500182753392389826121635646272538300 (n l 2500182753392389826122198596326622891 l)) 2500182753392389826123887446119777960 (n (n l 2500182753392389826123887446388213423 l) 2500182753392389826123887446388213431 (n l 2500182753392389826124168921281038012 l)))) 2500182753392389826124731871016355503 (n (n (n (n l 2500182753392389826125857771225188011 l) 2500182753392389826276165403671627170 (n l 2500182753392389826277009828618536366 l)) 2500182753392389826277009828719199654 (n (n l 2500182753392389826277009828870194602 l) 2500182753392389826277572778706175413 (n l 2500182753392389826278135728475047349 l))) 2500182753392389826278135728743482798 (n (n (n l 2500182753392394548487837041041704619 l) 2500182753392394548488118515917751983 (n l 2500182753392394548488681465971836584 l)) 2500182753392394548489244415891703467 (n (n l 2500182753392394548490370316066981551 l) 2500182753392394548490651790708147900 (n l 2500182753392394548642648273484613038 l)))))))
def tKorean000 : T := n tKorean0000 2500182278023499743132864688794207928 tKorean0001
def tKorean0010 : T := (n (n (n (n (n (n (n l 2500182753392408715742941307350386085 l) 2500182753392408715742941307350386101 (n l 2500182753392408715744067207139788213 l)) 2500182753392413437956301794647836335 (n (n l 2500182753392418160323629089223181999 l) 2500182753392418160477032946581210549 (n l 2500182753392418160480692121228117416 l))) 2500182753392418160480692121228117428 (n (n (n l 2500182753392427605052654178806105783 l) 2500182753392427605053498603518133935 (n l 2500182753392427605053498603736237739 l)) 2500182753392427605054624503408199351 (n (n l 2500182753392427605055187453596501688 l) 2500182753392427605055750403281487548 (n l 2500182753392427605055750403583477431 l)))) 2500182753392427605056031878560188088 (n (n (n (n l 2500182753392427605208028360950777249 l) 2500182753392427605208028361084994989 (n l 2500182753392427605209998685720642978 l)) 2500182753392427605212250485551105442 (n (n l 2500182753392427605212531960578147765 l) 2500182753392451216885912951727425207 (n l 2500182753392451216886475901915727745 l))) 2500182753392451216887601801822570155 (n (n (n l 2500182753392451216888164751541110458 l) 2500182753392451216888164751574664872 (n l 2500182753392451216888164751675328188 l)) 2500182753392451216889009176471242408 (n (n l 2500182753392451217041287133955982766 l) 2500182753392451217041287134106977701 (n l 2500182753392451217041287134157309350 l))))) 2500182753392451217041287134257972650 (n (n (n (n (n l 2500182753392451217042413033862825377 l) 2500182753392451217042413034097706406 (n l 2500182753392484273450448614464784040 l)) 2500182753392484273452981889255179951 (n (n l 2500182753392484273453544839091160744 l) 2500182753392484273453544839208601271 (n l 2500182753392484273453544839326041771 l))) 2500182753392484273454952214209595068 (n (n (n l 2500182753392484273455515163961689771 l) 2500182753392484273606667221673805230 (n l 2500182832620552340385691765141767855 l)) 2500182832620552340385973239816488616 (n (n l 2500182832620552340386536189769909943 l) 2500182832620552340389632414513727164 (n l 2500182832620552340540502997333018017 l)))) 2500182832620552340540502997333018030 (n (n (n (n l 2500182832620552340541347422162486690 l) 2500182832620552340541347422313481653 (n l 2500182832620552340542473322102883750 l)) 2500182832620552340542473322304210349 (n (n l 2500182832620552340546132496917562805 l) 2500182832620552340546132497018226082 (n l 2500182832620557062751611684632233660 l))) 2500182832620557062751893159642498744 (n (n (n l 2500182832620557062752456109461702319 l) 2500182832620557062906985867028563366 (n l 2500182832620571229852467668652754618 l)) 2500182832620571229853593568324716218 (n (n l 2500182832620571229855563893396571819 l) 2500182832620571230007278900693009826 (n l 2500182832620571230007278900894336437 l)))))) 2500182832620571230007278900994999721 (n (n (n (n (n (n l 2500182832620571230008404800683738534 l) 2500182832620571230008404800767624613 (n l 2500182832620571230010656600598087089 l)) 2500182832620571230010656600614864300 (n (n l 2500182832620575952374887670513501619 l) 2500182832620580674740244640285427114 (n l 2500182832620580674741370539940611497 l))) 2500182832620590119316991772199061163 (n (n (n l 2500182832620590119318399146931619511 l) 2500182832620590119318399147233609399 (n l 2500182832620590119319525046838462140 l)) 2500182832620590119320087996791883435 (n (n l 2500182832620590119320369471768594108 l) 2500182832620590119320369471835702955 (n l 2500182832620590119320369471902811819 l)))) 2500182832620590119321495371809654460 (n (n (n (n l 2500182832620590119322058321695966903 l) 2500182832620590119472365954394064297 (n l 2500182832620590119472365954494727585 l)) 2500182832620590119473210379357750690 (n (n l 2500182832620590119473210379391305134 l) 2500182832620590119473210379424859553 (n l 2500182832620590119477995454028940705 l))) 2500182832620590119477995454079272373 (n (n (n l 2500182832620590119477995454146381230 l) 2500182832620613731149406120576124587 (n l 2500182832620613731150250545204266679 l)) 2500182832620613731151094970352502443 (n (n l 2500182832620613731151376445329213099 l) 2500182832620613731151939395064530603 (n l 2500182832620613731151939395064530620 l))))) 2500182832620613731152502345085060799 (n (n (n (n (n l 2500182832620613731152502345353496235 l) 2500182832620613731152783819994662588 (n l 2500182832620613731152783820061771452 l)) 2500182832620613731152783820128880296 (n (n l 2500182832620613731153346770283628203 l) 2500182832620613731153909719901505192 (n l 2500182832620613731154191195096319671 l))) 2500182832620613731304780302687241646 (n (n (n l 2500182832620613731305624727533487529 l) 2500182832620613731305624727583819189 (n l 2500182832620613731305624727684482467 l)) 2500182832620613731306750627406775722 (n (n l 2500182832620613731306750627406775725 l) 2500182832620646787714786208092620456 (n l 2500182832620646787715349157744051883 l)))) 2500182832620646787715349158079596207 (n (n (n (n l 2500182832620646787716475057650894507 l) 2500182832620646787716475057751557820 (n l 2500182832620646787716475057986438831 l)) 2500182832620646787717319482581026492 (n (n l 2500182832620646787717882432735774396 l) 2500182832620646787717882432819660463 (n l 2500182832620646787718163907729262268 l))) 2500182832620646787719571282394711723 (n (n (n l 2500182911848714854806810915646834082 l) 2500182911848714854806810915646834101 (n l 2500182991076877368913804002041366187 l)) 2500182991076877368914366951961233084 (n (n l 2500182991076877368915211376857810615 l) 2500182991076877368915211376857810620 (n l 2500182991076877368915211377193354936 l)))))))
def tKorean0011 : T := (n (n (n (n (n (n (n l 2500182991076877368915774326811231932 l) 2500182991076877368916337276764653244 (n l 2500182991076877368916337276831762095 l)) 2500182991076877368916337277066643127 (n (n l 2500182991076877368916337277100197551 l) 2500182991076877368916900226785183416 (n l 2500182991076877368916900226919401148 l))) 2500182991076877368916900226952955567 (n (n (n l 2500182991076877368917181701694785212 l) 2500182991076877368917181701761894059 (n l 2500182991076877368917181702030329515 l)) 2500182991076877368917744651782424235 (n (n l 2500182991076877368918307601601627836 l) 2500182991076877368918870551857039023 (n l 2500182991076877369074807683854468514 l)))) 2500182991076877369074807683888022962 (n (n (n (n l 2500182991076877369074807684005463457 l) 2500182991076877369074807684039017893 (n l 2500182991076877369074807684039017902 l)) 2500182991076877369074807684072572322 (n (n l 2500182991076877369074807684089349549 l) 2500182991076882091282257196557108904 (n l 2500182991076896258381142855438665400 l))) 2500182991076896258381142855740655275 (n (n (n l 2500182991076896258381424330516039356 l) 2500182991076896258381424330750920363 (n l 2500182991076896258382831705332483772 l)) 2500182991076896258382831705517033135 (n (n l 2500182991076896258383113180342748840 l) 2500182991076896258383113180342748855 (n l 2500182991076896258383394655386568360 l))))) 2500182991076896258383957605507761839 (n (n (n (n (n l 2500182991076896258535109663001773473 l) 2500182991076896258535109663035327922 (n l 2500182991076896258535954087780910501 l)) 2500182991076896258535954087898351010 (n (n l 2500182991076896258535954087931905454 l) 2500182991076896258537079987838748065 (n l 2500182991076896258537079987922634165 l))) 2500182991076896258539613262645921205 (n (n (n l 2500182991076900980746218350502315703 l) 2500182991076900980748751624990721724 (n l 2500182991076900980749314575179024047 l)) 2500182991076900980750721949827696296 (n (n l 2500182991076900980902436957694559653 l) 2500182991076900980906659082294887842 (n l 2500182991076915147845666959437956791 l)))) 2500182991076915147846229909190051499 (n (n (n (n l 2500182991076915147846511384368088744 l) 2500182991076915147847355808996230844 (n l 2500182991076915147847355809214334635 l)) 2500182991076915147848200233993471663 (n (n l 2500182991076915147848200234060580520 l) 2500182991076915147848763184081110716 (n l 2500182991076915147848763184114665131 l))) 2500182991076915147848763184181774007 (n (n (n l 2500182991076915147849044659192039087 l) 2500182991076915147850452033958151868 (n l 2500182991076915147850733508817422012 l)) 2500182991076915148001041141481964969 (n (n l 2500182991076915148001885566395319719 l) 2500182991076915148001885566663755170 (n l 2500182991076915148005263266250065333 l)))))) 2500182991076915148006670641150395829 (n (n (n (n (n (n l 2500182991076934037316383512656447164 l) 2500182991076938759678081307429144235 (n l 2500182991076938759678644257416119979 l)) 2500182991076938759678925732292167339 (n (n l 2500182991076938759679770157322962603 l) 2500182991076938759679770157322962620 (n l 2500182991076938759680051632199009960 l))) 2500182991076938759680614582152431292 (n (n (n l 2500182991076938759680614582219540136 l) 2500182991076938759680614582370535087 (n l 2500182991076938759681177532172961464 l)) 2500182991076938759681177532206515895 (n (n l 2500182991076938759681177532206515900 l) 2500182991076938759681177532441396920 (n l 2500182991076938759681459007300667051 l)))) 2500182991076938759681459007418107576 (n (n (n (n l 2500182991076938759682021957254088367 l) 2500182991076938759682303432079804090 (n l 2500182991076938759682866382301660847 l)) 2500182991076938759683147856942827176 (n (n l 2500182991076938759833455489691256231 l) 2500182991076938759833455489808696745 (n l 2500182991076938759833455489859028390 l))) 2500182991076938759834299914738828709 (n (n (n l 2500182991076938759834299914738828718 l) 2500182991076938759834299914772383153 (n l 2500182991076938759838522039439820193 l)) 2500182991076962371511058605877069495 (n (n l 2500182991076962371512184505666471599 l) 2500182991076962371513028930680489660 (n l 2500182991076962371670373437511140789 l))))) 2500182991076962371671499337501869493 (n (n (n (n (n l 2500182991076962371671499337535423918 l) 2500182991076971816243461394878531240 (n l 2500182991076971816243461394878531243 l)) 2500182991076971816243461395012748975 (n (n l 2500182991076971816244305819825440424 l) 2500182991076971816245150245074339499 (n l 2500182991076971816245994669736036011 l))) 2500182991076971816245994669736036015 (n (n (n l 2500182991076971816246557619857229487 l) 2500182991076971816246557619957892779 (n l 2500182991076971816246557619957892783 l)) 2500182991076971816246839094599059112 (n (n l 2500182991076971816246839094599059132 l) 2500182991076971816246839094666167983 (n l 2500182991076971816246839094666167991 l)))) 2500182991076971816246839094817162940 (n (n (n (n l 2500182991076971816246839094901049003 l) 2500182991076971816246839094934603448 (n l 2500182991076971816247402044619589308 l)) 2500182991076971816248527944459323064 (n (n l 2500182991076971816248527944526431927 l) 2500182991076971816398835577174197678 (n l 2500182991076971816398835577174197685 l))) 2500182991076971816398835577325192609 (n (n (n l 2500182991076971816398835577409078697 l) 2500182991076971816399680002104329641 (n l 2500182991076971816399680002104329650 l)) 2500182991076971816399680002221770165 (n (n l 2500182991076971816399680002255324577 l) 2500182991076971816399680002255324582 (n l 2500182991076971816399680002339210662 l)))))))
def tKorean001 : T := n tKorean0010 2500182991076877368915492852052625071 tKorean0011
def tKorean00 : T := n tKorean000 2500182753392408715742096882403476917 tKorean001
def tKorean0100 : T := (n (n (n (n (n (n (n l 2500182991076971816400805902044726690 l) 2500182991076971816400805902095058344 (n l 2500182991076971816400805902162167214 l)) 2500182991076971816400805902162167221 (n (n l 2500182991076971816400805902246053286 l) 2500182991076971816400805902279607714 (n l 2500182991076971816400805902296384930 l))) 2500182991076971816403057701908743605 (n (n (n l 2500182991076971816403057701975852449 l) 2500183070305134330509206363608024759 (n l 2500183070305134330510895213166298810 l)) 2500183149533202397443323614294279855 (n (n l 2500183149533202397445856889118230184 l) 2500183149533202397446419839071651511 (n l 2500183149533202397447264263968229047 l)))) 2500183149533202397447545738777167544 (n (n (n (n l 2500183149533202397447545738944939691 l) 2500183149533202397597853371357824437 (n l 2500183149533202397597853371508819374 l)) 2500183149533202397598697796287956386 (n (n l 2500183149533202397598697796287956394 l) 2500183149533202397598697796321510818 (n l 2500183149533202397598697796405396910 l))) 2500183149533202397598697796489282990 (n (n (n l 2500183149533202397602075496159479221 l) 2500183149533207119812058283786733227 (n l 2500183149533207119812339758495008444 l)) 2500183149533207119964336241154033070 (n (n l 2500183149533211842175444928352585387 l) 2500183149533211842176289353282717355 (n l 2500183149533211842178541153230620348 l))))) 2500183149533211842330819110799246766 (n (n (n (n (n l 2500183149533211842336448610383791534 l) 2500183149533211842336448610467677601 (n l 2500183149533221286909255092791248567 l)) 2500183149533221286909818042828555947 (n (n l 2500183149533221287064629274902365621 l) 2500183149533221287064629275053360549 (n l 2500183149533221287068006974690002337 l))) 2500183149533221287068288449666713006 (n (n (n l 2500183149533221287068288449800930726 l) 2500183149533230731641376407000549035 (n l 2500183149533230731641376407084435115 l)) 2500183149533230731641376407151543979 (n (n l 2500183149533230731641376407168321195 l) 2500183149533230731642220831930681010 (n l 2500183149533230731642220832165562027 l)))) 2500183149533230731642783781951211179 (n (n (n (n l 2500183149533230731642783782118983351 l) 2500183149533230731643909681790944954 (n l 2500183149533230731643909681790944956 l)) 2500183149533230731644472631828252348 (n (n l 2500183149533230731644472632012801707 l) 2500183149533230731646442956531009212 (n l 2500183149533230731796750589380101537 l))) 2500183149533230731796750589380101557 (n (n (n l 2500183149533230731797595014159238574 l) 2500183149533230731797595014159238581 (n l 2500183149533230731797595014310233510 l)) 2500183149533230731797595014343787938 (n (n l 2500183149533230731797595014360565166 l) 2500183149533230731797595014461228466 (n l 2500183149533230731798720914066081205 l)))))) 2500183149533230731798720914166744482 (n (n (n (n (n (n l 2500183149533230731798720914217076140 l) 2500183149533230731798720914300962209 (n l 2500183149533230731800972713963652519 l)) 2500183149533230731801254189007472037 (n (n l 2500183149533230731802380089065309601 l) 2500183149533230731802380089065309610 (n l 2500183149533235454007859276578653879 l))) 2500183149533235454007859276880643767 (n (n (n l 2500183149533235454009829601415628476 l) 2500183149533235454010392551369049771 (n l 2500183149533235454010392551369049788 l)) 2500183149533235454010392551436158635 (n (n l 2500183149533235454010392551587153583 l) 2500183149533235454010392551671039672 (n l 2500183149533235454010955501356025512 l)))) 2500183149533235454011236976366290603 (n (n (n (n l 2500183149533235454011236976366290607 l) 2500183149533235454011236976366290620 (n l 2500183149533240176374905096479278767 l)) 2500183149533240176375749521107420840 (n (n l 2500183149533240176376312471362832043 l) 2500183149533240176376875421349807800 (n l 2500183149533240176377438371068348087 l))) 2500183149533240176377438371202565807 (n (n (n l 2500183149533240176377719846011504299 l) 2500183149533240176377719846279939752 (n l 2500183149533240176531686653658498466 l)) 2500183149533244898743921240948442795 (n (n l 2500183149533244898901828697816401333 l) 2500183149533244898901828697900287393 (n l 2500183149533249621263526492941419957 l))))) 2500183149533254343473790755377612456 (n (n (n (n (n l 2500183149533254343477731405051561647 l) 2500183149533254343477731405169002167 (n l 2500183149533259065840273625106712247 l)) 2500183149533259065843369849884083887 (n (n l 2500183149533259065843651324827240119 l) 2500183149533259065844214274545780412 (n l 2500183149533259066001277306634601909 l))) 2500183149533259066001277306785596837 (n (n (n l 2500183149533259066001277306819151269 l) 2500183149533263788209289769240331947 (n l 2500183149533263788209289769307440811 l)) 2500183149533263788209289769542321852 (n (n l 2500183149533263788210134194237572796 l) 2500183149533263788211541569154680491 (n l 2500183149533268510573802314048571048 l)))) 2500183149533268510729457971320948137 (n (n (n (n l 2500183149533268510729457971404834210 l) 2500183149533268510729457971471943077 (n l 2500183149533268510730583871378785702 l)) 2500183149533277955308175428222551723 (n (n l 2500183149533277955308175428289660600 l) 2500183149533277955308738378243081916 (n l 2500183149533277955309301328364275371 l))) 2500183149533277955311271653033477815 (n (n (n l 2500183149533277955311271653067032248 l) 2500183149533282677674095347981452984 (n l 2500183149533282677674376822991718076 l)) 2500183149533282677674376823109158575 (n (n l 2500183149533282677675221247821186731 l) 2500183149533282677676065672818427560 (n l 2500183149533282677677754522611582632 l)))))))
def tKorean0101 : T := (n (n (n (n (n (n (n l 2500183149533282677677754522712245948 l) 2500183149533282677828062155561338278 (n l 2500183149533287400198767149706216877 l)) 2500183149533287400198767149823657390 (n (n l 2500183149533292122405653712421881515 l) 2500183149533292122406216662408857259 (n l 2500183149533292122407342562399585963 l))) 2500183149533292122407624037292410536 (n (n (n l 2500183149533292122408186987447158440 l) 2500183149533292122408186987447158455 (n l 2500183149533292122408749937266362024 l)) 2500183149533292122408749937299916459 (n (n l 2500183149533292122410720261902010024 l) 2500183149533296844772136582033540794 (n l 2500183149533296844772136582100649658 l)))) 2500183149533296844772699532020516535 (n (n (n (n l 2500183149533296844772699532054070967 l) 2500183149533296844772981006896563887 (n l 2500183149533296844772981007030781628 l)) 2500183149533296844773543957151975095 (n (n l 2500183149533296844773825432162240171 l) 2500183149533296844774106906904069807 (n l 2500183149533296844774106907021510319 l))) 2500183149533296844774388381780117167 (n (n (n l 2500183149533296844774669856756827836 l) 2500183149533296844774669856823936700 (n l 2500183149533296844774669857058817711 l)) 2500183149533296844775232806911575740 (n (n l 2500183149533296844775232806928352954 l) 2500183149533296844775232806945130159 (n l 2500183149533296844775232807045793448 l))))) 2500183149533296844775514281754068651 (n (n (n (n (n l 2500183149533296844775514281905063612 l) 2500183149533296844776640181895792303 (n l 2500183149533296844777203131681441451 l)) 2500183149533296844928355189192230318 (n (n l 2500183149533296844928355189192230325 l) 2500183149533296844928355189242561961 (n l 2500183149533296844928355189276116402 l))) 2500183149533296844928355189343225259 (n (n (n l 2500183149533296844928355189393556898 l) 2500183149533296844928355189427111334 (n l 2500183149533296844928355189494220193 l)) 2500183149533296844929481089099072949 (n (n l 2500183149533296844929481089149404578 l) 2500183149533296844929481089216513454 (n l 2500183149533296844929481089333953958 l)))) 2500183149533296844929481089333953973 (n (n (n (n l 2500183149533296844931732889013421486 l) 2500183149533296844932014363939800482 (n l 2500183149533296844932014364040463777 l)) 2500183149533296844932014364040463797 (n (n l 2500183228761364911706816782706771624 l) 2500183228761364911706816782908098216 (n l 2500183228761364911707661207670458044 l))) 2500183228761364911708224157489661628 (n (n (n l 2500183228761364911709350057732048552 l) 2500183228761364911709350057732048555 (n l 2500183228761364911709913007450588843 l)) 2500183228761364911709913007584806571 (n (n l 2500183228761364911709913007635138223 l) 2500183228761364911710194482393745084 (n l 2500183228761364911711601857210189483 l)))))) 2500183228761364911862190964901774753 (n (n (n (n (n (n l 2500183228761364911863035389882238389 l) 2500183228761364911863035390066787765 (n l 2500183228761364911866413089703429557 l)) 2500183228761364911866694564730471861 (n (n l 2500183228761364911867820464519873954 l) 2500183228761364911867820464519873960 (n l 2500183228761364911867820464519873971 l))) 2500183228761364911867820464536651169 (n (n (n l 2500183228761364911867820464536651177 l) 2500183228761364911867820464536651189 (n l 2500183228761364911867820464553428405 l)) 2500183228761364911867820464586982817 (n (n l 2500183228761364911867820464586982825 l) 2500183228761364911867820464670868897 (n l 2500183228761369634073862602506733244 l)))) 2500183228761369634075832927041717931 (n (n (n (n l 2500183228761369634075832927058495164 l) 2500183228761369634076677352038958780 (n l 2500183228761369634078084726855403179 l)) 2500183228761369634078366201832113832 (n (n l 2500183228761383801172748261254071994 l) 2500183228761383801172748261321180858 (n l 2500183228761383801173311211241047720 l))) 2500183228761383801174155636137625259 (n (n (n l 2500183228761383801174718586091046571 l) 2500183228761383801175844486148884143 (n l 2500183228761383801176688911079016104 l)) 2500183228761383801328966868412761506 (n (n l 2500183228761383801328966868412761525 l) 2500183228761383801328966868530202030 (n l 2500183228761383801328966868563756454 l))))) 2500183228761383801328966868563756469 (n (n (n (n (n l 2500183228761383801328966868614088097 l) 2500183228761383801328966868614088110 (n l 2500183228761383801328966868647642534 l)) 2500183228761383801328966868714751399 (n (n l 2500183228761383801328966868714751406 l) 2500183228761383801330092768369935778 (n l 2500183228761383801330092768554485153 l))) 2500183228761383801332344568284284334 (n (n (n l 2500183228761383801332344568368170401 l) 2500183228761383801332626043260994997 (n l 2500183228761383801333751943067174313 l)) 2500183228761383801333751943100728757 (n (n l 2500183228761383801333751943134283177 l) 2500183228761383801333751943134283182 (n l 2500183228761383801333751943134283189 l)))) 2500183228761383801333751943201392041 (n (n (n (n l 2500183228761383801333751943218169269 l) 2500183228761383801333751943251723701 (n l 2500183228761388523539231130966394556 l)) 2500183228761388523540919980826658472 (n (n l 2500183228761388523541201455669151407 l) 2500183228761388523541201455736260280 (n l 2500183228761388523542327355575994027 l))) 2500183228761388523542327355911538351 (n (n (n l 2500183228761388523542608830552704680 l) 2500183228761388523543171780724229807 (n l 2500183228761388523544016205654361783 l)) 2500183228761388523544297680412968619 (n (n l 2500183228761402690638679739767817896 l) 2500183228761402690638679739834926763 (n l 2500183228761402690638679740069807799 l)))))))
def tKorean010 : T := n tKorean0100 2500183149533282677677754522628359868 tKorean0101
def tKorean0110 : T := (n (n (n (n (n (n (n l 2500183228761402690640368589728745148 l) 2500183228761402690641213014558213820 (n l 2500183228761402690641213014625322667 l)) 2500183228761402690642057439555454639 (n (n l 2500183228761402690642057439555454652 l) 2500183228761402690642057439823890088 (n l 2500183228761402690794898347194942882 l))) 2500183228761402690799683421597697453 (n (n (n l 2500183228761402690799683421681583529 l) 2500183228761402690799683421681583538 (n l 2500183228761407413007695884270536360 l)) 2500183228761416857741224573782820523 (n (n l 2500183228761426302472501463179429559 l) 2500183228761426302472782937854150319 (n l 2500183228761426302472782937921259176 l)))) 2500183228761426302472782938072254123 (n (n (n (n l 2500183228761426302472782938189694635 l) 2500183228761426302473064412830860988 (n l 2500183228761426302473064412931524267 l)) 2500183228761426302473627363119826600 (n (n l 2500183228761426302474190313073247915 l) 2500183228761426302474190313073247919 (n l 2500183228761426302474471787714414268 l))) 2500183228761426302475597687638034088 (n (n (n l 2500183228761426302627312695337125301 l) 2500183228761426302628438595126527413 (n l 2500183228761426302632097769941206446 l)) 2500183228761426302632097769974760870 (n (n l 2500183228761426302632097770008315309 l) 2500183228761449914458882618666616245 (n l 2500183228761449914464512118049834401 l))))) 2500183228761449914464512118049834405 (n (n (n (n (n l 2500183228761449914464512118200829350 l) 2500183228761459359036474175510382248 (n l 2500183228761459359036474175510382264 l)) 2500183228761459359036474175611045564 (n (n l 2500183228761459359036474175812372151 l) 2500183228761459359036474175812372152 (n l 2500183228761459359037037125765793468 l))) 2500183228761459359038444500347356860 (n (n (n l 2500183228761459359038444500565460668 l) 2500183228761459359039007450636322472 (n l 2500183228761459359039570400354862760 l)) 2500183228761459359039570400489080491 (n (n l 2500183228761459359039851875298018984 l) 2500183228761459359039851875298018999 (n l 2500183228761459359039851875566454443 l)))) 2500183228761459359040414825402435247 (n (n (n (n l 2500183228761459359192692782820066729 l) 2500183228761459359192692782820066733 (n l 2500183228761459359192692782820066741 l)) 2500183228761459359192692782954284449 (n (n l 2500183228761459359193818682794018213 l) 2500183307989527425974532076172576444 (n l 2500183387217689940236054919647430327 l))) 2500183387217689940236899344611116732 (n (n (n l 2500183387217689940236899344913106615 l) 2500183387217689940237462294631646895 (n l 2500183387217689940238025244551513771 l)) 2500183387217689940239432619669948087 (n (n l 2500183387217689940395088276640335265 l) 2500183387217689940395088276791330210 (n l 2500183387217689940395088276824884647 l)))))) 2500183387217689940395088276824884652 (n (n (n (n (n (n l 2500183387217689940395088276841661865 l) 2500183387217689940396495651523888545 (n l 2500183387217689940396495651523888553 l)) 2500183387217689940396495651523888558 (n (n l 2500183387217689940396495651725215145 l) 2500183387217694662602537789359752879 (n l 2500183387217694662605352539126859447 l))) 2500183387217708829703393773178947247 (n (n (n l 2500183387217708829704519673320670903 l) 2500183387217708829857642055701988770 (n l 2500183387217708829858767955457836457 l)) 2500183387217708829861864180369425826 (n (n l 2500183387217708829862427130255738281 l) 2500183387217713552069313692904294056 (n l 2500183387217713552071002542798112427 l)))) 2500183387217713552071002542949107368 (n (n (n (n l 2500183387217713552071284017858709180 l) 2500183387217713552072972867567978167 (n l 2500183387217727719169325251692693163 l)) 2500183387217727719169325251692693176 (n (n l 2500183387217727719169888201864218283 l) 2500183387217727719170451151834416811 (n l 2500183387217727719170732626643355319 l))) 2500183387217727719171295576596776636 (n (n (n l 2500183387217727719328358608769484213 l) 2500183387217741886266803536093349547 (n l 2500183387217741886269336810581755580 l)) 2500183387217741886269336810648864427 (n (n l 2500183387217741886269336810917299883 l) 2500183387217741886269899760535176872 (n l 2500183387217741886270181235646105276 l))))) 2500183387217751331002302549939291816 (n (n (n (n (n l 2500183387217751331002865499892713128 l) 2500183387217751331003146975137859243 (n l 2500183387217751331003709924822845099 l)) 2500183387217751331003709925057726120 (n (n l 2500183387217751331155143457377453486 l) 2500183387217751331155143457528448425 (n l 2500183387217751331155143457578780070 l))) 2500183387217751331155143457679443361 (n (n (n l 2500183387217751331160772956911666601 l) 2500183387217765498102314108828354232 (n l 2500183387217765498102595584073500328 l)) 2500183387217765498104284433631774396 (n (n l 2500183387217784387568245587375654568 l) 2500183387217784387721367969824081326 (n l 2500183387217784387724745669594940834 l)))) 2500183466445871343970264641748174507 (n (n (n (n l 2500183466445871344123105549035341221 l) 2500183466445890233589037027616196001 (n l 2500183466445899678164658259690096311 l)) 2500183466445937457097928592070903479 (n (n l 2500183466445946901986831463358760361 l) 2500183545674014968767263381861271224 (n l 2500183545674014968919541339077576110 l))) 2500183545674014968919541339278902689 (n (n (n l 2500183545674019691133746251204495036 l) 2500183545674019691135435101249308348 (n l 2500183545674019691286024208873784757 l)) 2500183545674033858230661585383294639 (n (n l 2500183545674052747697437488961390251 l) 2500183545674052747857033795773498792 (n l 2500183545674052747857033795773498794 l)))))))
def tKorean0111 : T := (n (n (n (n (n (n (n l 2500183545674052747857033795974825382 l) 2500183545674052747857033796075488682 (n l 2500183545674066914795478723181250219 l)) 2500183545674066914798574947857958571 (n (n l 2500183545674090526627893071440873143 l) 2500183545674099971362266185346418344 (n l 2500183545674099971516232992842417582 l))) 2500183545674099971516232992993412533 (n (n (n l 2500183624902177483031600975405221551 l) 2500183624902177483184723357652321698 (n l 2500183624902177483184723357702653345 l)) 2500183624902182205397520894862132907 (n (n l 2500183624902182205550361802417735091 l) 2500183624902182205551206227465307573 (n l 2500183624902205817383620575607489972 l)))) 2500183624902205817383620575624267189 (n (n (n (n l 2500183624902205817383620575724930485 l) 2500183624902205817388405650027021729 (n l 2500183624902205817388405650178016681 l)) 2500183624902205817388405650329011626 (n (n l 2500183624902215261963745407208097468 l) 2500183624902215261965434257068361399 (n l 2500183624902234151427988036029351595 l))) 2500183624902234151429676885856061116 (n (n (n l 2500183624902234151429676886007056043 l) 2500183624902234151431365735749879467 (n l 2500183624902271930358162143364351659 l)) 2500183624902271930359850993090397884 (n (n l 2500183624902271930515506650513769902 l) 2500183624902271930515506650547324333 (n l 2500183624902271930515506650564101537 l))))) 2500183624902271930519165825060013480 (n (n (n (n (n l 2500183704130339997293405294125221551 l) 2500183704130339997295375618878310059 (n l 2500183704130339997296782993610868395 l)) 2500183704130339997297627418691995319 (n (n l 2500183704130339997297627418809435823 l) 2500183704130339997448216526165476778 (n l 2500183704130339997448216526165476781 l))) 2500183704130339997448216526165476789 (n (n (n l 2500183704130339997448216526282917301 l) 2500183704130339997448216526350026161 (n l 2500183704130339997448216526366803361 l)) 2500183704130339997449060951095608744 (n (n l 2500183704130339997449060951162717602 l) 2500183704130339997452438650832913830 (n l 2500183704130339997453846025699689902 l)))) 2500183704130339997453846025884239284 (n (n (n (n l 2500183704130344719659325213615687343 l) 2500183704130344719659325213733127851 (n l 2500183704130344719660169638445156024 l)) 2500183704130344719660169638445156028 (n (n l 2500183704130344719661014063593391791 l) 2500183704130344719661858488372528808 (n l 2500183704130344719661858488372528815 l))) 2500183704130344719662421438258841259 (n (n (n l 2500183704130344719820328895495898529 l) 2500183704130344719820328895529452977 (n l 2500183704130349442186811764990117301 l)) 2500183704130349442186811765141112238 (n (n l 2500183704130358886760181197334218408 l) 2500183704130358886761870047395808956 (n l 2500183704130363609282601199228519861 l)))))) 2500183704130368331647958169017222562 (n (n (n (n (n (n l 2500183704130368331647958169168217506 l) 2500183704130368331647958169168217525 (n l 2500183704130368331652743243688412590 l)) 2500183704130368331652743243721967009 (n (n l 2500183704130368331652743243721967022 l) 2500183704130368331652743243772298662 (n l 2500183704130368331652743243839407522 l))) 2500183704130373053862726031030453928 (n (n (n l 2500183704130377776225268250984941239 l) 2500183704130377776226675625868494504 (n l 2500183704130377776229208900742776495 l)) 2500183704130377776229771850914301624 (n (n l 2500183704130377776380079483478181301 l) 2500183704130377776382049808248047017 (n l 2500183704130377776385708982978839977 l)))) 2500183704130377776385708983012394414 (n (n (n (n l 2500183704130377776385708983096280481 l) 2500183704130382498592877020637660843 (n l 2500183704130382498593158495731812011 l)) 2500183704130382498593721445467129519 (n (n l 2500183704130382498594565870397261500 l) 2500183704130382498596254720257525416 (n l 2500183704130382498746562353089840553 l))) 2500183704130382498747406778103858593 (n (n (n l 2500183704130382498748532677809374645 l) 2500183704130391943324153910067824299 (n l 2500183704130391943324153910118155947 l)) 2500183704130391943326124234938353320 (n (n l 2500183704130391943326687184774334120 l) 2500183704130391943327250134945859243 (n l 2500183704130391943327531609687688892 l))))) 2500183704130391943327531609754797739 (n (n (n (n (n l 2500183704130391943484594641994614190 l) 2500183704130401388059089974094562987 (n l 2500183704130420277525584402964383400 l)) 2500183704130420277526147352917804719 (n (n l 2500183704130420277684054809701877154 l) 2500183704130424999890941372669200055 (n l 2500183704130425000045752605011445173 l))) 2500183704130425000050537679414199733 (n (n (n l 2500183704130429722256016867263088296 l) 2500183704130429722257705716989134524 (n l 2500183704130429722258550141936043708 l)) 41946098117770882159587665025464055409771955 (n (n l 41946098117770882162156632305169379501377192 l) 41946098117770882162156632307702654258218680 (n l 41946098117770882162156632308547079121241788 l)))) 41946098117770882162156632308547079188350648 (n (n (n (n l 41946098117770882162156632309954454004795051 l) 41946098117770882162175521771945283213690556 (n l 41946098117770882162175521773634132788741800 l)) 41946098117770882162175521774478558004086460 (n (n l 41946098117770882162213300702963815143278248 l) 41946098117770882162213300706341514930915004 (n l 41946098117770882162236912535941113322768055 l))) 41946098117770882162236912536222588299478716 (n (n (n l 41946098117770882162236912537348488306984619 l) 41946098117770882162236912537348488424425128 (n l 41946098117770961387698233256519758052951477 l)) 41946098117770961387707677985826322646140341 (n (n l 41946098117771199074792522266448844428510908 l) 41946098117771199074806689362519753576515260 (n l 41946098117771199074806689364208603654882991 l)))))))
def tKorean011 : T := n tKorean0110 2500183545674052747857033795857384873 tKorean0111
def tKorean01 : T := n tKorean010 2500183228761402690638679740103362236 tKorean011
def tKorean0 : T := n tKorean00 2500182991076971816399680002406319530 tKorean01
def tKorean1000 : T := (n (n (n (n (n (n (n l 41946098117771199074806689366460403468568232 l) 41946098117771199074825578831547457203177143 (n l 41946098117771357531150607357126419463374504 l)) 41946098117771357531150607358533794263041707 (n (n l 41946098117771357531150607359659694102775464 l) 41946098117771357531150607359659694337656508 (n l 41946098117771357531150607359659694371210935 l))) 41946098117771357531150607360504119032907452 (n (n (n l 41946098117771357531150607362192968960280235 l) 41946098117771357531211998122811099617265320 (n l 41946098117771357531211998124499949477529276 l)) 41946098117771357531211998124781424370353852 (n (n l 41946098117771357531211998125344374306997935 l) 41946098117771357531211998126470274247395004 (n l 41946098117771357531211998126470274280949431 l)))) 41946098117771515984835833106882912860603815 (n (n (n (n l 41946098117771515987442579322954793942615720 l) 41946098117771515987475635887490456327653032 (n l 41946098117771515987537026650078911720949419 l)) 41946098117771515987537026650078911821612712 (n (n l 41946098117771515987537026650078911939053227 l) 41946098117771515987537026650078912022939320 (n l 41946098117771515987537026650923336785299132 l))) 41946098117771515987537026652612186846889640 (n (n (n l 41946098117771515987537026653175136531875512 l) 41946098117771515987537026653175136565429931 (n l 41946098117771515987537026653175136699647659 l)) 41946098117771515987537026653456611441477308 (n (n l 41946098117771515987537026654019561411675816 l) 41946098117771515987537026654582511482537660 (n l 41946098117771515987537026655145461301741244 l))))) 41946098117771595215619260684207721313044136 (n (n (n (n (n l 41946098117771595215619260684207721447261884 l) 41946098117771595215619260684770671350351543 (n l 41946098117771595215619260685615096179820215 l)) 41946098117771595215619260685615096280483499 (n (n l 41946098117771595215619260686740996388652728 l) 41946098117771595215619260686740996422207159 (n l 41946098117771595215619260687585421083903671 l))) 41946098117771595215619260688148370970216111 (n (n (n l 41946098117771595215699540914416505365563068 l) 41946098117771595215699540917794204985427644 (n l 41946098117771832897485890163107387196671397 l)) 41946098117771912128255150643516861755524792 (n (n l 41946098117771912128255150643798336614794927 l) 41946098117771912128255150643798336732235435 (n l 41946098117771912128255150645205711431239356 l)))) 41946098117771912128255150645487186324063912 (n (n (n (n l 41946098117771912128269317744654320551429803 l) 41946098117772229040919374803975019329324732 (n l 41946098117772308266484587580139921685448097 l)) 41946098117772308269067721965767779227371176 (n (n l 41946098117772308269081889065216388163012267 l) 41946098117772308269081889066342288170518187 (n l 41946098117772308269081889066342288220849832 l))) 41946098117772308269138557461603448988468907 (n (n (n l 41946098117772308269138557464136723694978728 l) 41946098117772308269138557464136723778864811 (n l 41946098117772466725406917591921250581710520 l)) 41946098117772466725406917595298950000248508 (n (n l 41946098117772466725463585991686010859259576 l) 41946099446998877947129173609022675237308072 (n l 41946099446999194859783953033981819300710063 l)))))) 41946099446999511772462344289947936371083137 (n (n (n (n (n (n l 41946100776226873729395798996160228268017077 l) 41946100776226873731974211016431115870242488 (n l 41946100776226873731988378114753824798377660 l)) 41946100776226873732045046513111210494363307 (n (n l 41946100776226873732045046515363010408711851 l) 41946100776226873732994242175323584252184239 (n l 41946100776226952960221727876052988261926575 l))) 41946100776226952960231172608174302538335932 (n (n (n l 41946100776226952960231172609018727434913451 l) 41946100776226952960231172609300202310960828 (n l 41946100776227507557274325131131864423171767 l)) 41946100776227507557288492229173098391373483 (n (n l 41946100776227507557288492230861948050310844 l) 41946100776227507557368772458537457211770551 (n l 41946100776227507557368772459381882477446827 l)))) 41946100776227507557368772460789257092564664 (n (n (n (n l 41946100776227507557368772461070732002166460 l) 41946100776227507557368772461633682089805483 (n l 41946100776227903698101063550861066111125167 l)) 41946100776227903698101063551986965866972856 (n (n l 41946100776228299838993915102476342705358504 l) 41946102105454869516904251016590560375965359 (n l 41946102105454869516904251017434985306097320 l))) 41946102105454869516904251018279410102011578 (n (n (n l 41946102105454869516904251019123835250247339 l) 41946102105454869516904251019968260029384375 (n l 41946102105454869516904251021375634946492075 l)) 41946102105454869516904251021375635063932604 (n (n l 41946102105454869516923140482522038856156847 l) 41946102105454869516923140483929413806818984 (n l 41946102105454869516960919415229420914443964 l))))) 41946102105454869516960919417481221063673527 (n (n (n (n (n l 41946102105454869516965641782838190567163563 l) 41946102105454869516965641784245565350053564 (n l 41946102105454869516984531246799344512370347 l)) 41946102105454869516984531250177043930908348 (n (n l 41946102105454948742445851969066838817605033 l) 41946102105454948742460019065982173013181877 (n l 41946102105455265655147855058573204188661171 l))) 41946102105455503339597618914375003067745702 (n (n (n l 41946102105455503339640120212439354663077301 l) 41946102105455503339640120213565254871909813 (n l 41946102105455503342190198031842699657709239 l)) 41946102105455503342190198033250074876806840 (n (n l 41946102105455503342190198034938924737070767 l) 41946102105456137167575314745768376413554347 (n l 41946106093138856869040401147990265481495969 l)))) 41946106093138856869059290613921744062350773 (n (n (n (n l 41946106093138856869073457709711178418193845 l) 41946106093138856869082902448306417293166003 (n l 41946106093138856871637702631096406937536188 l)) 41946106093138856871651869728574691036202679 (n (n l 41946106093138856871651869731107965860153000 l) 41946106093138856871651869731107966162142895 (n l 41946106093138856871651869731389440870418103 l))) 41946106093138856871651869731389440937526952 (n (n (n l 41946106093138856871670759196757969732732599 l) 41946106093139332238015486735423201628751285 (n l 41946106093139332240626955314881727276615351 l)) 41946106093139332240707235545090511245248171 (n (n l 41946106093139332240707235545653461299332796 l) 41946106093139332240707235547623786102752943 (n l 41946106093139332240707235548186736324609724 l)))))))
def tKorean1001 : T := (n (n (n (n (n (n (n l 41946106093139490694340515264661338854622629 l) 41946106093139490694387738926112335401682357 (n l 41946106093139490696937816744671255516513960 l)) 41946106093139490696937816745797155507242679 (n (n l 41946106093139490696937816746641580286379688 l) 41946106093139490697008652243040199967344303 (n l 41946106093139490697008652243040200101562024 l))) 41946106093139490697008652243884625233020602 (n (n (n l 41946106093139490697008652245010524938536636 l) 41946106093139886835157808948328576508331441 (n l 41946106093139886835200310251178002758075810 l)) 41946106093139886837764555165244882386257576 (n (n l 41946106093139886837764555166370782058219192 l) 41946106093139886837764555169467006734927528 (n l 41946106093139886837783444630331935802099371 l)))) 41946106093139886837783444630331935835653807 (n (n (n (n l 41946106093139886837783444631739310752761515 l) 41946106093139886837783444633428160780797623 (n l 41946106093139886837783444633709635791062703 l)) 41946106093140441432295408803195330943354277 (n (n l 41946106093140441434902155014763611961788075 l) 41946106093140441434902155018141311816533672 (n l 41946106093140441434916322117308445943236279 l))) 41946107422366852653946829315172411891615157 (n (n (n l 41946107422366852653946829318831586421081525 l) 41946107422366852653956274048138151014270369 (n l 41946107422366852656567742633507651223389871 l)) 41946107422366852656567742633789126200100527 (n (n l 41946107422366852656567742634352076220630716 l) 41946107422366852656567742634915026408933052 (n l 41946107422366852656567742635196501083653820 l))))) 41946107422366852656567742635196501301757608 (n (n (n (n (n l 41946107422366852656567742635759451037075115 l) 41946107422366852656581909735208060308260535 (n l 41946107422366852656586632097750280044644011 l)) 41946107422366852656586632098594704874112687 (n (n l 41946107422366852656586632099439129938462376 l) 41946107422366852656586632100283554751153852 (n l 41946107422366852656586632100846504989787831 l))) 41946107422366852656586632101127979731617451 (n (n (n l 41946107422366852656586632102253879705568952 l) 41946107422366852656629133397784956611167930 (n l 41946107422366852656629133398629381541299900 l)) 41946107422366852656629133398629381675517824 (n (n l 41946107422366852656648022862027585633748663 l) 41946107422366852656648022863716435292685995 (n l 41946107422366852656648022863716435410126507 l)))) 41946107422366852656648022863997910235842232 (n (n (n (n l 41946107422366852656648022864560860256372412 l) 41946107422366852656648022864560860457698984 (n l 41946107422366852656648022865123810075575979 l)) 41946107422366852656648022865123810293679791 (n (n l 41946107422366852656648022867094134912550568 l) 41946107422366852656648022867094134946105020 (n l 41946107422366931884716089799241060778608296 l))) 41946107422366931884716089799241060828939964 (n (n (n l 41946107422366931884716089799804011050796715 l) 41946107422367169569217799692265400383407784 (n l 41946107422367169569236689155100654421771959 l)) 41946107422367169569274468090059836360853163 (n (n l 41946107422367169569279190454853856095471279 l) 41946107422367169569279190456542705905403563 (n l 41946107422367169569279190456824180714342056 l)))))) 41946107422367169569279190457387130936198824 (n (n (n (n (n (n l 41946107422367328025542828217844362727491260 l) 41946107422367328025542828218688787691177660 (n l 41946107422367328025542828219533212587755196 l)) 41946107422367328025542828220377637752768171 (n (n l 41946107422367328025561717685464691168609980 l) 41946107422367328025561717686872066287044271 (n l 41946107422367328025623108450586421721401007 l))) 41946107422367328025623108451149371574159019 (n (n (n l 41946107422367486479256388163964799390156211 l) 41946107422367486479303611827667595784455605 (n l 41946107422367486481853689649604215871473336 l)) 41946107422367486481858412016650035470108343 (n (n l 41946107422367486481867856749052824572233404 l) 41946107422367486481867856749615774794090155 (n l 41946107422367486481867856749897249770800815 l)))) 41946107422367486481886746217236102983550635 (n (n (n (n l 41946107422367882622666260973825458079631019 l) 41946107422367882622680428069614892351588028 (n l 41946107422367882622680428069896367395407548 l)) 41946107422367882622680428070740792291985064 (n (n l 41946107422367882622680428072992592374105775 l) 41946107422367882622699317534420471126263486 (n l 41946107422367882622699317535827845875599019 l))) 41946107422367882622699317536109320919418552 (n (n (n l 41946107422367882622699317536109321187854014 l) 41946107422367882622699317537235220759152299 (n l 41946107422367882622699317539205545612904124 l)) 41946107422368437217211281707002391223698857 (n (n l 41946107422368437217220726436590430760043945 l) 41946107422368437219836917385346576088663740 (n l 41946107422368437219888863417502566998705839 l))))) 41946107422368437219907752882026670477903535 (n (n (n (n (n l 41946110080822844223788019855752271725954485 l) 41946110080822844223854132990171621355521461 (n l 41946110080822844226399488439432922259359407 l)) 41946110080822844226399488442529146734741176 (n (n l 41946110080822844226399488443373571614541480 l) 41946110080822844226418377906771775723767479 (n l 41946110080822844226418377908460625584031403 l))) 41946110080822844226418377909023575201908392 (n (n (n l 41946110080822844226456156837227357884483240 l) 41946110080822844226456156839760632792319672 (n l 41946110080822844226456156840323582645077679 l)) 41946110080822844226456156841168007474546347 (n (n l 41946110080822844226479768669641706043442859 l) 41946110080822844226479768669641706194437815 (n l 41946110080822844226479768672174980682843836 l)))) 41946110080822844226479768672174981018388136 (n (n (n (n l 41946110080822844226479768672737930703374008 l) 41946110080822844226479768672737930971809451 (n l 41946110080822844226479768673019405680084663 l)) 41946110080822844226479768674426780714632887 (n (n l 41946110080822844226479768674708255624234684 l) 41946110080822923454547835604603381508834991 (n l 41946110080822923454642282933979299436398248 l))) 41946110080822923454642282935668149397325500 (n (n (n l 41946110080822923454642282935668149514765999 l) 41946110080822923454642282936512574226794155 (n l 41946110080822923454642282936512574293903019 l)) 41946110080822923454642282936512574562338475 (n (n l 41946110080822923454642282937075524515759791 l) 41946110080822923454642282939045849168185007 (n l 41946110080823161136461688751146493628482995 l)))))))
def tKorean100 : T := n tKorean1000 41946106093139332240707235549312635895908023 tKorean1001
def tKorean1010 : T := (n (n (n (n (n (n (n l 41946110080823161139049545499316570906789564 l) 41946110080823161139049545499879521078314667 (n l 41946110080823161139049545500160995820144316 l)) 41946110080823161139049545500160995887253163 (n (n l 41946110080823161139049545501286895743764136 l) 41946110080823161139068434963277724633892527 (n l 41946110080823161139068434964403624641398460 l))) 41946110080823161139068434964403624758838955 (n (n (n l 41946110080823161139068434967218374307841724 l) 41946110080823161139129825726992080202467004 (n l 41946110080823161139129825727836504998381244 l)) 41946110080823161139129825728680930029176508 (n (n l 41946110080823161139129825728962405005887151 l) 41946110080823161139129825730088305147610795 (n l 41946110080823161139129825730369779788777148 l)))) 41946110080823161139129825730369779855885992 (n (n (n (n l 41946110080823161139129825730369780124321455 l) 41946110080823161139129825732058629649041079 (n l 41946110080823240364619480649001217409779105 l)) 41946110080823478049078689242272355307324841 (n (n l 41946110080823478049088133970453019893007797 l) 41946110080823478049130635268798846699931050 (n l 41946110080823478051685435455529486269908663 l))) 41946110080823478051685435457781286217811642 (n (n (n l 41946110080823478051699602554133670610962095 l) 41946110080823478051699602554696620564383415 (n l 41946110080823478051699602554978095507539644 l)) 41946110080823478051699602555822520269899432 (n (n l 41946110080823478051699602556385470189766312 l) 41946110080823478051699602556666945401357999 (n l 41946110080823478051699602557511370331489967 l))))) 41946110080823478051699602558637270037006008 (n (n (n (n (n l 41946110080823478051779882789127528948795051 l) 41946110080823715733566232032751861048116661 (n l 41946110080823874189933761863150574747354537 l)) 41946110080823874189976263158400176726574517 (n (n l 41946110080823874192512173875821637995169451 l) 41946110080823874192531063343723441513662140 (n l 41946110080823874192531063345130816632096440 l))) 41946110080824270330746333184275592513684905 (n (n (n l 41946110080824270330755777916396907058529701 l) 41946110080824270330755777916678382001685941 (n l 41946110080824270330784112113323800059282867 l)) 41946110080824270333343634667100259060123304 (n (n l 41946110080824270333343634668226159201846967 l) 41946110080824270333386135961786911253694123 (n l 41946110080824270333405025427718389700331176 l)))) 41946110080824270333405025431096089739626155 (n (n (n (n l 41946110080824428787052472247582251091592627 l) 41946110080824428787061916978577665444382121 (n l 41946110080824428789635606627580608797312700 l)) 41946110080824428789635606628143558784288444 (n (n l 41946110080824428789635606628425033945548463 l) 41946110080824428789635606628987983680865980 (n l 41946110080824428789635606631239783494551208 l))) 41946110080824428789635606631521258689365687 (n (n (n l 41946110080824428789649773726747742856906423 l) 41946110080824428789649773727873642881189547 (n l 41946110080824428789649773728155117639796399 l)) 41946110080824428789649773729281017747965628 (n (n l 41946110080824428789649773730125442543879868 l) 41946110080824428789668663192116271383676599 (n l 41946110080824428789668663193523646367893160 l)))))) 41946110080824428789668663193805121243940540 (n (n (n (n (n (n l 41946110080824428789668663194649546476062392 l) 41946110080824428789668663195493971104204476 (n l 41946110080824428789668663195493971171313340 l)) 41946110080824428789668663196056921124734635 (n (n l 41946110080824428789668663196338396101445306 l) 41946110080824428789668663197182821031577271 (n l 41946110080824428789668663197182821065131691 l))) 41946110080824428789706442127356928265914044 (n (n (n l 41946110080824428789706442127356928333022908 l) 41946110080824428789706442128764303149467307 (n l 41946112739278835793610320930400652979439029 l)) 41946112739278835793652822234375979337352609 (n (n l 41946112739278835793666989329320988628846005 l) 41946112739278835793690601160609437048735155 (n l 41946112739278835796217067149287283543344828 l)))) 41946112739278835796231234247047042585167548 (n (n (n (n l 41946112739278835796231234247609992538588860 l) 41946112739278835796231234247891467548853948 (n l 41946112739278835796231234249017367321478844 l)) 41946112739278835796287902649063602944837306 (n (n l 41946112739278835796292625012731722856498856 l) 41946112739278835797241820674944096513656495 (n l 41946112739278835797241820676069996638602923 l))) 41946112739278915024412637979286439513392823 (n (n (n l 41946112739278994252542095676273620636763819 l) 41946112739278994252542095676273620854867624 (n l 41946112739278994252542095678806895561377448 l)) 41946112739278994252542095679651320424400567 (n (n l 41946112739278994252542095681058695458948791 l) 41946112739278994252636543006493963595122359 (n l 41946112739278994252636543007338388525254312 l))))) 41946112739278994252636543007619863401301679 (n (n (n (n (n l 41946112739279152708881291305241841657546408 l) 41946112739279152708881291305804791678076587 (n l 41946112739279152708900180770328895459264175 l)) 41946112739279152708900180771736270426703531 (n (n l 41946112739279152708900180773425120286967479 l) 41946112739279152708900180775113970180785850 (n l 41946112739279152708942682072052421902829244 l))) 41946112739279152708961571536295050489202364 (n (n (n l 41946112739279231934432336986180259930015157 l) 41946112739279231937043805572112710260328107 (n l 41946112739279311165192152738690544393356975 l)) 41946112739279311165206319833072603848869551 (n (n l 41946112739279311165206319833072604050196136 l) 41946112739279311165206319834479978631759528 (n l 41946112739279311165206319835605878605711023 l)))) 41946112739279311165206319835605878672819880 (n (n (n (n l 41946112739279311165206319835605878840592056 l) 41946112739279311165206319836168828827567787 (n l 41946112739279311165206319836450303468734140 l)) 41946112739279311165206319837013253640259247 (n (n l 41946112739279311165206319837857678687831727 l) 41946112739279311165206319838139153328998072 (n l 41946112739279311165225209302381782116697788 l))) 41946112739279311165225209304070632211842735 (n (n (n l 41946112739279311165286600063281387934942888 l) 41946112739279311165286600063844337670260407 (n l 41946112739279311165286600065814662507235004 l)) 41946112739279311165286600066377612494210748 (n (n l 41946112739279311165286600066377612561319592 l) 41946112739279311165286600066377612678760124 (n l 41946112739279311165286600068347937331185340 l)))))))
def tKorean1011 : T := (n (n (n (n (n (n (n l 41946112739279311166216906262377032660911804 l) 41946112739279311166216906263784407880009400 (n l 41946112739279390393439669595216191923783343 l)) 41946112739279469618934046879767549404349877 (n (n l 41946112739279469618990715276717560099341729 l) 41946112739279469618995437647422554395215271 (n l 41946112739279469621517181264832456690861756 l))) 41946112739279469621531348361747790836106941 (n (n (n l 41946112739279469621531348363436640830588599 l) 41946112739279469621531348366251390597695164 (n l 41946112739279548849693862628618659237562044 l)) 41946112739279548849693862629463084167693995 (n (n l 41946112739279707306018891156730896304932527 l) 41946112739279707306018891157293846392571563 (n l 41946112739279707306018891158419746299414184 l)))) 41946112739279865762343919684280183620208316 (n (n (n (n l 41946112739279865762343919685124608516785852 l) 41946112739279865762343919685406083392833195 (n l 41946112739279865762343919686813458343495339 l)) 41946112739279865762343919688502308153427644 (n (n l 41946112739279865762362809151900511927109291 l) 41946112739279865762362809152463462182520503 (n l 41946112739279865762414755183775028279871159 l))) 41946112739279944990506433950869577179170475 (n (n (n l 41946112739279944990506433951151051820336828 l) 41946112739279944990525323413704830982653624 (n l 41946112739280024216099980932405621870921125 l)) 41946112739280182674979809641337524014122667 (n (n l 41946112739280182674979809643870798586414780 l) 41946112739280182674979809643870798921959096 (n l 41946112739280261903156491010190275873179324 l))))) 41946112739280261903213159404325537002391208 (n (n (n (n (n l 41946112739280261903213159404888486855149227 l) 41946112739280261903213159405451436875679420 (n l 41946112739280261903213159405451437144114856 l)) 41946112739280261903213159406014386761991848 (n (n l 41946112739280341128750037987222721071777193 l) 41946112739280420356874773316882607686911401 (n l 41946112739280420356912552249027039741445557 l))) 41946112739280420359481519533798913363510955 (n (n (n l 41946112739280420359481519533798913464174248 l) 41946112739280420359481519533798913497728700 (n l 41946112739280420359481519533798913665500843 l)) 41946112739280420359481519535487763441878703 (n (n l 41946112739280420359481519536332188170684092 l) 41946112739280420359481519536895138207991467 (n l 41946112739280420359481519536895138342209195 l)))) 41946112739280420359481519537176613218256572 (n (n (n (n l 41946112739280420359481519537739563104569003 l) 41946112739280420359481519538865463044966076 (n l 41946112739280420359500408999730392078583480 l)) 41946112739280420359500409000574816874497707 (n (n l 41946112739280420359500409000574817176487612 l) 41946112739280420359500409001700716781340331 (n l 41946112739280420359500409001700716915558059 l))) 41946112739280420359500409002263666734761660 (n (n (n l 41946112739280420359500409002263666751538876 l) 41946112739280420359500409002263666868979371 (n l 41946112739280420359500409002826616923063983 l)) 41946112739280420359500409003108091732002492 (n (n l 41946112739280420359500409003108091799111356 l) 41946112739280420359500409003389566977148584 (n l 41946112739280420359500409004796941541934780 l)))))) 41946112739280420359538187931593349408065207 (n (n (n (n (n (n l 41946112739280420359542910299483593735505576 l) 41946112739280420359542910299765068611552954 (n l 41946112739280420359542910300609493759788719 l)) 41946112739280420359542910301172443729987243 (n (n l 41946112739280420359542910301453918471816892 l) 41946112739280420359542910303142768332080808 (n l 41946114068506831581132940051968443883292331 l))) 41946114068506831581132940053938768686712508 (n (n (n l 41946114068506831581132940054501718640133816 l) 41946114068506831581132940054501718774351548 (n l 41946114068506831581132940056190568651392695 l)) 41946114068506831581147107151980002973681320 (n (n l 41946114068506831581165996618474431340185274 l) 41946114068506831581203775548930013484123819 (n l 41946114068506831581203775551744763385448122 l)))) 41946114068506831581227387381062886884476587 (n (n (n (n l 41946114068506831581227387381062886951585451 l) 41946114068506831581227387382751736694408875 (n l 41946114068506831581227387383596161859421864 l)) 41946114068506831581227387384159111812843179 (n (n l 41946114068506831581227387384440586521118391 l) 41946114068506910806754821229586956645664181 (n l 41946114068507148491176250893809887165384117 l))) 41946114068507148493782997108755868306998952 (n (n (n l 41946114068507148493782997111289142862513852 l) 41946114068507148493782997111852092950152892 (n l 41946114068507148493782997111852093050816188 l)) 41946114068507148493797164208204477074867900 (n (n l 41946114068507148493797164209048901870782127 l) 41946114068507148493797164209893326800914108 (n l 41946114068507148493797164209893327019017899 l))))) 41946114068507148493797164210174801777624747 (n (n (n (n (n l 41946114068507148493797164211300701885793980 l) 41946114068507148493797164211582176677955260 (n l 41946114068507148493797164212145126681708207 l)) 41946114068507148493797164212708076702238396 (n (n l 41946114068507148493816053675824805381768892 l) 41946114068507148493816053676106280358479531 (n l 41946114068507148493816053677232180298876584 l))) 41946114068507148493853832605998912750323383 (n (n (n l 41946114068507148493853832608532187809154743 l) 41946114068507148493853832609095137661912747 (n l 41946114068507148493853832609376612470851255 l)) 41946114068507148493858554972481782630418091 (n (n l 41946114068507148493858554976422432136595112 l) 41946114068507148493877444440102110769546927 (n l 41946114068507148493877444440102110870210219 l)))) 41946114068507148493877444440102110987650731 (n (n (n (n l 41946114068507148493877444440946535699678908 l) 41946114068507148493877444440946535766787772 (n l 41946114068507148493877444441509485887981227 l)) 41946114068507148493877444441790960629810876 (n (n l 41946114068507227719352932255625764808000937 l) 41946114068507227719395433557349291301897641 (n l 41946114068507465403854642153435178932995501 l))) 41946114068507465406466110734582554508232376 (n (n (n l 41946114068507465406466110734582554743113399 l) 41946114068507465406527501499141334939829948 (n l 41946114068507465406527501500830184665876152 l)) 41946114068507861544667213470619546975045045 (n (n l 41946114068507861547340072817451602804836011 l) 41946114068507861547340072817451603022939816 (n l 41946114068507861547340072818014552858920619 l)))))))
def tKorean101 : T := n tKorean1010 41946112739279311165286600068347937431848619 tKorean1011
def tKorean10 : T := n tKorean100 41946110080823161139049545498472146177984175 tKorean101
def tKorean1100 : T := (n (n (n (n (n (n (n l 41946114068507861547340072818296027869185704 l) 41946114068507861547340072819421927641810603 (n l 41946114068507861547340072819984877813335723 l)) 41946114068507861547340072820547827548653244 (n (n l 41946114068508257688058196812015452477818536 l) 41946114068508257688152644139139570759468715 (n l 41946114068508257688152644141672845314983612 l))) 41946114068508416141828425155930324765607330 (n (n (n l 41946114068508416144383225340690639565719211 l) 41946114068508416144383225341253589519140536 (n l 41946114068508416144383225341253589686912683 l)) 41946114068508416144383225341535064428742332 (n (n l 41946114068508416144397392437605973945845432 l) 41946114068508416144397392438450398708205244 (n l 41946114068508416144397392441546623317804719 l)))) 41946114068508416144397392441546623535908527 (n (n (n (n l 41946114068508416144397392442109573405443772 l) 41946114068508416144397392442672523241424572 (n l 41946114068508416144416281905226302303078059 l)) 41946114068508416144416281905507777162348220 (n (n l 41946114068508416144454060838778109106947752 l) 41946114068508416144458783202727703961765547 (n l 41946114068508416144458783204979503775450795 l))) 41946114068508416144458783205260978970265276 (n (n (n l 41946115397736411926697074392375413803419061 l) 41946116726962823148381551474236181962655157 (n l 41946116726962823150964685859019614389896872 l)) 41946116726962823150978852960157073403905711 (n (n l 41946116726962823150978852961001498183042748 l) 41946116726962823151035521358795933925607080 (n l 41946116726962823151049688459088967724271275 l))))) 41946116726962823151059133190365857372538539 (n (n (n (n (n l 41946116726962823151059133190647332131145385 l) 41946116726962823151059133192054707014698664 (n l 41946116726962902379127200125327532770821820 l)) 41946116726962902379127200125890482724243132 (n (n l 41946116726962902379127200126453433013208759 l) 41946116726963140063628910015818597719443112 (n l 41946116726963140063628910016663022649575100 l))) 41946116726963140063628910019196297221867196 (n (n (n l 41946116726963140063647799486816625662985896 l) 41946116726963140063699745513624592132966063 (n l 41946116726963140063709190246590331524056747 l)) 41946116726963140063709190249968031362025131 (n (n l 41946116726963456976349802572382341410424495 l) 41946116726963456976359247303377755645773480 (n l 41946116726963456976359247306755455366301372 l)))) 41946116726963536204460370806534268646426300 (n (n (n (n l 41946116726963853117110427860788418279737003 l) 41946116726963853117110427862758742814721711 (n l 41946116726963853117110427863321692768143019 l)) 41946116726963853117110427863321693103687339 (n (n l 41946116726963853117110427863884642822227627 l) 41946116726963853117110427863884643057108664 (n l 41946116726963853117110427864166117698275004 l))) 41946116726963853117110427865573492581828267 (n (n (n l 41946116726963853117171818625065723466188456 l) 41946116726963853117171818625910148429874863 (n l 41946116726964407714229138249160743945602728 l)) 41946116726964407714248027713684847911339704 (n (n l 41946116726964407714248027714247797764097711 l) 41946116726964407714248027715936647389480619 (n l 41946116726964407714285806644703380025476776 l)))))) 41946116726964407714285806645547805073049263 (n (n (n (n (n (n l 41946116726964407714299973744996413807363759 l) 41946116726964407714309418479369527847126699 (n l 41946118056190818933302146745933486771766689 l)) 41946118056191452758578649032442011547960757 (n (n l 41946118056191452758602260864856359740474805 l) 41946118056191848899400665082873594092029345 (n l 41946118056192245042819982620351967732532911 l))) 41946118056192245042819982621477867303831215 (n (n (n l 41946118056192245042819982623448192476350127 l) 41946118056192245042819982623729667184625327 (n l 41946118056192245042838872087690820928505528 l)) 41946119385418814718246353847230389955954101 (n (n l 41946119385418814720810598768615618693400252 l) 41946119385419210859011701509719160908776883 (n l 41946119385419210859044758074536298589291955 l)))) 41946119385419448543518133763033920704710057 (n (n (n (n l 41946119385419448546190993113525151332402859 l) 41946119385419448546190993114088101050943144 (n l 41946119385419448546190993114088101285824175 l)) 41946119385419448546190993114369575926990524 (n (n l 41946119385419448546190993114369576228980412 l) 41946119385419448546190993116058425787254456 (n l 41946119385420240827721688424710419043681976 l))) 41946119385420240827721688426680743679329967 (n (n (n l 41946119385420240827721688427243693599196860 l) 41946119385420240827721688428088118797764284 (n l 41946119385420399281482472036222501994464691 l)) 41946120714646810505726471669889404267234991 (n (n l 41946120714646810505726471670733829096703659 l) 41946120714646810505745361138354157873366712 (n l 41946120714646810505745361138917107726124719 l))))) 41946120714646810505787862436699984478963388 (n (n (n (n (n l 41946120714647285874701557255914965530937003 l) 41946120714647285874781837486123749684119211 (n l 41946120714647285874781837488657024206079676 l)) 41946120714647285874781837489219974176278204 (n (n l 41946120714647285874781837489219974478268079 l) 41946120714647444328448173771356139501487525 (n l 41946120714647840471895825505761405974972072 l))) 41946120714647840471895825507450256036562607 (n (n (n l 41946120714647840471919437336486904307222204 l) 41946120714647840471919437339020179131172520 (n l 41946120714647840471919437339020179298944696 l)) 41946120714648395066407789671306451503646121 (n (n l 41946120714648395068995646423980128811976375 l) 41946120714648395068995646427076353388021436 (n l 41946122043874806290628177474247855813265080 l)))) 41946122043874806290628177474810805565359787 (n (n (n (n l 41946122043874806290628177475655230495491752 l) 41946122043874806290628177476218180415358635 (n l 41946122043874806290628177476781130318448316 l)) 41946122043874806290628177476781130519774895 (n (n l 41946122043874806290628177476781130603660984 l) 41946122043874806290628177477344080489973419 (n l 41946122043874806290628177477625555298911927 l))) 41946122043874806290642344573696464748906159 (n (n (n l 41946122043874806290642344574259414400337597 l) 41946122043874806290642344574259414618441387 (n l 41946122043874806290642344575385314525284011 l)) 41946122043874806290642344575666789350999723 (n (n l 41946122043874806290642344575666789418108584 l) 41946122043874806290642344576229739572856488 (n l 41946122043874806290642344577355639278372520 l)))))))
def tKorean1101 : T := (n (n (n (n (n (n (n l 41946122043874806290703735337973769935357608 l) 41946122043874806290722624803905248549766844 (n l 41946122043874806290722624806438523205945020 l)) 41946122043874885518790691741118724181165751 (n (n l 41946122043874885518875694337247427606710144 l) 41946122043874885518875694337810377459467951 (n l 41946122043874885518885139069087267023849148 l))) 41946122043874885518885139070213166930691752 (n (n (n l 41946122043874885518885139071339066921420459 l) 41946122043874964747047653335113710293845692 (n l 41946122043875281659617430159722025861613227 l)) 41946122043875281659617430159722026012608183 (n (n l 41946122043875281659617430162255300501014204 l) 41946122043875281659617430162255300836558511 (n l 41946122043875281659617430163099725431146172 l)))) 41946122043875281659636319628749729052067496 (n (n (n (n l 41946122043875281659678820925406706082612904 l) 41946122043875281659697710392464084805191336 (n l 41946122043875281659697710394715884383995563 l)) 41946122043875519344090805856382422486189739 (n (n l 41946122043875519344090805856663897127356092 l) 41946122043875519344090805856663897194464956 (n l 41946122043875519344104972952734806342469304 l))) 41946122043875519344104972952734806443132604 (n (n (n l 41946122043875519344104972955831031186949820 l) 41946122043875519344104972955831031371499183 (n l 41946122043875519344123862419510709987673788 l)) 41946122043875519344123862421762509868467900 (n (n l 41946122043875519344123862422325459620562600 l) 41946122043875836256755030011492555502487211 (n l 41946122043875915484936433743169002745726635 l))))) 41946122043876232397553434234294864156133032 (n (n (n (n (n l 41946122043876232397553434235420764381742763 l) 41946122043876232397567601335150848025659048 (n l 41946122043876232397647881563952257261733547 l)) 41946122043876311625730115598644016589145768 (n (n l 41946122043876390853949298258524246112306874 l) 703738748479035528501473358083325641950636837799607 (n l 703738748479035528501948727034799547839807142069670 l))) 703738748479035528546078812185758428974870155068853 (n (n (n l 703738748479035528546395724831093119842374886983093 l) 703738748479042174641769195322191952146476300338859 (n l 703738748479046162325518865549211302922989514884779 l)) 703738748479046162325915006309836751769798025774517 (n (n l 703738748479046162369332038054835646875880147486133 l) 703738748479050150009426992110703918155178421880503 (n l 703738748479052808466131615390911005640506768197288 l)))) 703738748479059454606268996309471150829279423596200 (n (n (n (n l 703738748479062113061230600028531676021491190826413 l) 703738748479062113061705969027229094461400831591841 (n l 703738770779780727075434303078747177535082848159157 l)) 703738770779782056260409197137750206987086640285367 (n (n l 703738770779791360899400582405730404613865370387893 l) 703738793080525925562561184829733811976030069556661 (n l 703738793080525925562719641069759742833663754208693 l))) 703738793080532571746036369255220729836876630951349 (n (n (n l 703738815381271124137314411436130736676570392528309 l) 703738815381272453321180111196322390613898452633013 (n l 703738815381272453321497023907770057993295543502507 l)) 703738815381276441050248289101739554141600315704757 (n (n l 703738815381281757917625974601407613001752882808491 l) 703738837682016322667858324861280774047104822773173 (n l 703738882283506719685212207212632681712102011930283 l)))))) 703738882283506719685766804444679858917899822532264 (n (n (n (n (n (n l 703738882283506719729738433195052502463093900674473 l) 703738882283508048913524904863565239279715038103223 (n l 703738882283517353510049996388663740659500878759349 l)) 703738882283517353552516290112655968723215692432821 (n (n l 703738882283517353553704712536202835745884715713958 l) 703738882283523999648761270367800030293305694717354 (n l 703738882283523999649712008294359208926397931292331 l))) 703738882283523999693049811787119039775845010998709 (n (n (n l 703738882283533304245444818180147813796307112396463 l) 703738882283533304289020306198229364173467243611566 (n l 703738904584251918215676892423322581622408544880033 l)) 703738904584251918259410836780599607845407550440885 (n (n l 703738904584258564356289642397248387952819382093500 l) 703738904584259893627385546346672525116064143607201 (n l 703738904584259893628732425076358451223266993472949 l)))) 703738904584262552039801628075334182846620806252200 (n (n (n (n l 703738904584269198180810518819330170426629290034876 l) 703738904584269198223356040724726288637198252213685 (n l 703738904584269198223672953322837312424206516979125 l)) 703738904584275844319759477238785741085425723868595 (n (n l 703738904584278502775592590802171418944694795732405 l) 703738904584278502775909503390837556080631334667959 (n l 703738904584278502776622556853465935400448542475947 l))) 703738949185742315276685491040272742223406352664239 (n (n (n l 703738949185742315277160860020080691917087762908855 l) 703738949185742315277794685343806794687841277412789 (n l 703738949185747632232957172151417722331487300322741 l)) 703738949185752949101602508345761501254211338339765 (n (n l 703738949185752949101602508378817910415691545151159 l) 703738949185752949145970277979540804134110683563445 (n l 703738949185768899836601189409677005894785450476981 l))))) 703738949185768899837076558323371824265341639427507 (n (n (n (n (n l 703738949185768899837314242872305229840419876079287 l) 703738993787232712338169458651198109029726595155639 (n l 703738993787232712338644827616838964622823241385655 l)) 703738993787232712338803283927700548097683648251301 (n (n l 703738993787232712338882512090214814687077022664097 l) 703738993787235370839241851536850460938468442867118 (n l 703738993787238029250311054583049857671993734825655 l))) 703738993787238029250944879873719392529385261204917 (n (n (n l 703738993787238029295233421411097567742840589616565 l) 703738993787238029295312649498053972295169601537446 (n l 703738993787239358478782208464563615664775744292523 l)) 703738993787240687705906483611669076000935711442620 (n (n l 703738993787240687706144168066155303633628826797756 l) 703738993787240687706857221542950935805912378607029 (n l 703738993787240687766832939182595588670249775498677 l)))) 703738993787242016935090690946366632625753039144354 (n (n (n (n l 703738993787243346162294194241819259539747676194229 l) 703738993787243346162848791450254611931021749355941 (n l 703738993787243346205631997791247333372398172997038 l)) 703738993787247333846281549003604917287154987665079 (n (n l 703738993787249992302748487800991731083480087496117 l) 703738993787249992302986172283812001394783764448936 (n l 703738993787251321573844391811806483060822485599667 l))) 703738993787255309214018573973520768376161442039221 (n (n (n l 703738993787255309214969312018139116962294324627115 l) 703738993787259296898243613227571799258721186579878 (n l 703738993787259296898243613237016470862915705079205 l)) 703738993787259296898402069533710802611209758672297 (n (n l 703738993787259296898718982268770454682912560350633 l) 703739016087977910868554915614370994506928511616700 (n l 703739016087977910869109512813361608584438887843511 l)))))))
def tKorean110 : T := n tKorean1100 41946122043874806290661234042724168107132587 tKorean1101
def tKorean1110 : T := (n (n (n (n (n (n (n l 703739016087977910913477282451863436417614766769589 l) 703739016087979240097184525830358167263019414947253 (n l 703739016087983227780934196109323610994118207047078 l)) 703739016087983227781488793246923401966053012637097 (n (n l 703739016087983227824509684132127314214645810693545 l) 703739016087984557008533840236236812169531562755767 (n l 703739016087988544693392704785679688378832667116981 l))) 703739016087988544737839702577250891365255607322037 (n (n (n l 703739016087995190833450857489779535103695746336161 l) 703739016087995190876788661001428674540114223924661 (n l 703739016087995190876788661029762875970606835271092 l)) 703739016088004495428470614016831819617745384867253 (n (n l 703739016088004495428866754838847721430544587785899 l) 703739060689473624886072879886677483367730673452469 (n l 703739060689473624887102845975751086216198511232437 l)))) 703739060689478941754480531475419307205932848612778 (n (n (n (n l 703739060689478941754638987828781875182030861469367 l) 703739060689478941754718215981851405709459983533736 (n l 703739082990213506461295850070573637565229949879717 l)) 703739082990214835688816266044417519882391552886181 (n (n l 703739082990214835733342491998502991710007765075379 l) 703739082990218823417329846746121706790363420788133 (n l 703739082990224140328362248421663214445350155814323 l))) 703739082990237432608320097580392253641852681553333 (n (n (n l 703739105290960034219043266739230272789992179860905 l) 703739105290964021903505990490268613478294900278959 (n l 703739105290965351131897916218712840380698018809519 l)) 703739105290969338815885270928552621064821638530735 (n (n l 703739127591703903522779817629552977000633383093673 l) 703739127591709220434366816442694337552049833608627 (n l 703739127591710549662521057754431267277341880059315 l))))) 703739127591714537346508412502049978698522721093043 (n (n (n (n (n l 703739127591727829625990892591246105871245843203507 l) 703739127591727829625990892685693430743564260836773 (n l 703739149892449102052452221238711753230663593068215 l)) 703739149892449102052848361966280633882634635806133 (n (n l 703739149892449102053165274644671738415219386451627 l) 703739149892449102053244502873299130698237894297259 (n l 703739149892449102096027709204847278488707131344297 l))) 703739149892449102096265393687667701359443370411445 (n (n (n l 703739149892449102096582306337724759835717436278197 l) 703739149892449102097216131642561243552610273822121 (n l 703739149892450431325211916558434144826395679884709 l)) 703739149892459735876260044250111189948022875326135 (n (n l 703739149892459735876656184968235340449004579292597 l) 703739149892461065105127338915862070168604930836143 (n l 11806776990802450534090400956830431944707125154282653976252 l)))) 11806776990802450534097047096492443840958174300030103553461 (n (n (n (n l 11806776990802450534097047096809356524071643063684115302076 l) 11806776990802450534097047096967812853822693032973207438761 (n l 11806776990802584338568238280548205676990674272854726509993 l)) 11806776990802628940058635341556804322275032926645592884907 (n (n l 11806776990802628940058635342507542291335670909246801807023 l) 11806776990802695842294230933901597843124830527443139921333 (n l 11806776990802851946766252992966376211086456578576803268003 l))) 11806776990802851947503974507809295062314306260202040690351 (n (n (n l 11806776990802851947503974508205435907942195580057426167471 l) 11806777364946891990797061980158084821118304839206090933943 (n l 11806777739091288846777632019216457823434644589354231629483 l)) 11806777739091288847512695076641697263690046553698330576555 (n (n l 11806777739091311148264539747956816836679010107665240130985 l) 11806777739091467252727257210654962559371007529347104999080 (n l 11806777739091578757184325238793118270609469992594013521313 l)))))) 11806778113235708003484791393946313349539461100706577090236 (n (n (n (n (n (n l 11806778113235708003484791395372417625548702226408141850035 l) 11806778113235708004230488277397764342149120265772490393013 (n l 11806778113235730304236636065023748439707837684030875207356 l)) 11806778113235730304239294520381492952450065791824645162671 (n (n l 11806778113235886410192076522937493779662098986470444467880 l) 11806778113236064816151006310980318278768932617875160663736 (n l 11806779235668965473618232575168543809038648557064085931443 l))) 11806779235668965474337344897040507753694763666954491364789 (n (n (n l 11806779235669143880298933142025640039440944853846639871413 l) 11806779235669255383291191965078067822700042901870371505847 (n l 11806779235669255384034230391507983017271667881000438957736 l)) 11806779235669411488522203187631377215152916539628597642927 (n (n l 11806779235669411489528428757147477415317666890799105803944 l) 11806779609813384630329379635945686298688315456865077134771 (n l 11806779609813384631057796553154319321283921479684270950056 l)))) 11806779609813384631057796553708916458883771279889125181096 (n (n (n (n l 11806779609813384631057796554105057271455092123432132904616 l) 11806779609813384631068430378546705573523909168425676670639 (n l 11806779609813384631069759605116383649142652434880709887674 l)) 11806779609813384631075076517654120365231520771672769660584 (n (n l 11806779609813406931793690488044650994825425894609740990123 l) 11806779609813406931793690489233073413649925871459316631223 (n l 11806779609813563036298943247796336401773705243650368308904 l))) 11806779609813563037010080202882010719939078929108770588065 (n (n (n l 11806779609813674540006326709129511663453173226160032679595 l) 11806779609813674540018289760457750511747863694511454652092 (n l 11806779609813674540745377452126669167725704968155932231336 l)) 11806779609813830645228033336425380003532036066756043835064 (n (n l 11806779609813830645976388674521522121813408590137638618549 l) 11806780358102222943749015298735418407490109873779732743855 (n l 11806780358102222944490724497407233032060626476316236023484 l))))) 11806780358102222944497370637940754715968582209692527330741 (n (n (n (n (n l 11806780358102312147455567885297258975535720521429216757173 l) 11806780358102401349698640493105365118675319189976656217768 (n l 11806780358102401350436362006442946294275393502172659418792 l)) 11806780358102401350441678919376824002385664405736926578101 (n (n l 11806780358102512853428620829416146004745345479833492227759 l) 11806780358102512853428620829416146014190080134422491924136 (n l 11806780358102512853448559249036007078614746631179314759356 l))) 11806780358102512854166342343546008720485468165161030354600 (n (n (n l 11806780358102624357170564218243585546465982756365225002419 l) 11806780358102624357171893447190108374731126751590787155369 (n l 11806780358102624357171893447269336546690119832798937318835 l)) 11806780358102624357910944189474215065622949810084392306081 (n (n l 11806780358102668958643681315148523870649257976118917563817 l) 11806780358102668958655644367110588122950120701801120499125 (n l 11806780358102668958655644367427500768284811569305483314613 l)))) 11806780358102668959374756690329430844515676721433291097783 (n (n (n (n l 11806780358102668959378744374871382696677673125681423287991 l) 11806780358102668959394695110424660912360125607694592738999 (n l 11806780732246642101208517697767159302670746953617258939829 l)) 11806781106391061257181943244335208170371026255314323342753 (n (n l 11806781106391061257902384794916010498250632223069510403759 l) 11806781106391105859383477260429483646119797005533573121447 (n l 11806781106391150460156091225818886289331139240654050264759 l))) 11806781106391150460157420453497758559869351054310195168939 (n (n (n l 11806781106391150460157420453735440365108062298970534282657 l) 11806781106391150460900458880403042578410992233155206940085 (n l 11806781106391195061634525235340789614899076815304431601340 l)) 11806781106391195061646488288253591713479054035526749357739 (n (n l 11806781106391195061654463654643737958431189563067380893372 l) 11806781106391195062368259066354807394289229051753805219499 (n l 11806781106391195062373575978179490794143236382195395429813 l)))))))
def tKorean1111 : T := (n (n (n (n (n (n (n l 11806781106391217362387699134889378501578615544182156134076 l) 11806781106391239663127580753370924062943842330349504923311 (n l 11806781106391239663858656127125721457583622942828036982443 l)) 11806781106391239663863973038712720308503916483101405054639 (n (n l 11806781106391239663878594547775548658305557398224277440183 l) 11806781106391261963880754652127228840516047914222173128115 (n l 11806781106391306565356530203835317236312881813868727338680 l))) 11806781106391306565368493255797381465001917191752066893483 (n (n (n l 11806781106391351167604587200653571868243593558729722791595 l) 11806781106391373468329847311181483383341238368133571511733 (n l 11806781106391373468335164222689254095358943203604358596280 l)) 11806781106391373468335164223323079367138857881235200509615 (n (n l 11806781106391418069840182792364540131480416897148269987511 l) 11806781106391507272069963120056340866420472142127087847080 (n l 11806781106391507272084584628802256580332154029584712566447 l)))) 11806781106391507272801038495474929692749265834898631001786 (n (n (n (n l 11806781106391507272806355407061928581448493771404236392111 l) 11806781106391507272806355407141156748685124591867425556143 (n l 11806781106391507272806355407616525714325977651689264613052 l)) 11806781480535480413886444163707321738533798011812999956151 (n (n l 11806781480535480414624165678550238049128564070582149285559 l) 11806781480535480414630811817816109198921264381079591159467 (n l 11806781480535480414630811818687618896853212016310394914475 l))) 11806781480535502714631642693696637959970854540492146837163 (n (n (n l 11806781480535502714639618062384400950893224334558132012732 l) 11806781480535569617585021380630661417431903192389867636149 (n l 11806781480535569617608947484317105415601219110387033671336 l)) 11806781480535569617611605940308675266236494626311012189884 (n (n l 11806781480535569617611605940704816140198580591584119719612 l) 11806781480535569617611605940863272384947031898894794589602 (n l 11806781480535569617611605941734782215105237113825906492853 l))))) 11806781480535591917608449132201849440227830404410842908335 (n (n (n (n (n l 11806781480535770323558074325937970874910761937807419213480 l) 11806781480535770324318392717343055994068392603252351403437 (n l 11806781480535881828027105405087452859944561930113692829367 l)) 11806781480535926428781110180991939723599962966717548824239 (n (n l 11806782228824318728046459798123818970293652816990836983479 l) 11806782228824341028771719908810186673471039265004884952764 (n l 11806782228824341028791658330093839268754420893292215502507 l))) 11806782228824407931011303185776160322333889537341130900917 (n (n (n l 11806782228824497133274314212966443141525061489302024849082 l) 11806782228824608637740686836758180618539156075291449853365 (n l 11806782228824608637740686837312777713637712877693803005353 l)) 11806782602968737884746973034300856785622463979147069851054 (n (n l 11806782602968760185502805390237156373287376682166536734379 l) 11806782602968827087722450245047967785603144896312565139115 (n l 11806782602968916290725841243389649241354005370372094002863 l)))) 11806782602969139298155229674405774491325745327879437256367 (n (n (n (n l 11806782602969139298160546585913545184454142702278833964712 l) 11806782977113179342203318625463456266779213845993267234227 (n l 11806782977113402348928216242085885268912679340703257560759 l)) 11806782977113558454866376734945232564268272113601797522869 (n (n l 11806783351257576197432874867819587904151621821236022183592 l) 11806783725401995354141363473397439604063741669744436151717 (n l 11806783725401995354144021928992871263041007921965532546743 l))) 11806783725401995354149338840976010841530027865928259176120 (n (n (n l 11806783725401995354875097303143809399416612416416817186475 l) 11806783725401995354875097303619178402836396213296347317943 (n l 11806783725401995354892377267089013400211692410018363180712 l)) 11806783725402017655620295833608494695108952518294912468648 (n (n l 11806783725402196061587200990893679209401364966331224524213 l) 11806783725402262963094379664762191785008729990848315492008 (n l 198084847838523100083834665900556880626871320545625655745445988008 l)))))) 198084847838524970806376464369567389697554146182303268089133893308 (n (n (n (n (n (n l 198084847838525719082770962363203702657047508277641594245587502510 l) 198084847838527589817310561338292215522561587793794595733297530536 (n l 198084847838529460539294841168034861697332955235267249803538564779 l)) 198084847838529460539406344909978251079372274358534371133605643944 (n (n l 198084860392726196713111548062892729457085022072762433886608262844 l) 198084860392732931312767872569594045849553513764168346893327369896 (n l 198084866669827932099903815610053298856791169017072546545288709803 l))) 198084866669830925254811054404563762481026236304367681854664443560 (n (n (n l 198084885501133138247502291671483795622882257882435449993260271029 l) 198084885501133138259946107122738480542158243330018445772158240444 (n l 198084885501140621148039331650123417808318673630585718974682596773 l)) 198084891778234873646180856047911151228841222077603481589758658219 (n (n l 198084891778234873646336961256325496903069014239713235641617712823 l) 198084891778237866801601011964707855715496566286210474119755040424 (n l 198084891778239737511342183088530162941472475957319962104481023671 l)))) 198084891778239737511587491288372455787599200604279830584173364661 (n (n (n (n l 198084891778239737523696795544369260514667348316601648953467963048 l) 198084891778242356534965403685755132277551236953806582345894037167 (n l 198084898055336609033017725092114919793822761395544835302656935592 l)) 198084904332438718563961540437283197211818652525974928179360532143 (n (n l 198084904332438718564407555335936897216140808594454598591048681148 l) 198084904332439840997375115779138723870595188673520972225981810364 (n l 198084904332439840997375115787114091528391939406554836495746827947 l))) 198084904332440215141705069524113170742628223139707857802880976293 (n (n (n l 198084904332443208297058323203985055918673793389018134793829844651 l) 198084904332445827307925517946418883547134420489683722805729920687 (n l 198084904332445827308081623166796283401814944516560130639115945640 l)) 198084916886641815180638501908048501083396928169893940064061326757 (n (n l 198084916886641815180794607148364319844885077604893879835549599155 l) 198084916886644808336326266801787501334299382932836086195578570415 (n l 198084916886644808348324067323816284654037640646335987804541126319 l))))) 198084916886644808348413270295305812126847298968441257452764235432 (n (n (n (n (n l 198084916886645556624830069022177559062735589809163429463936042667 l) 198084916886645930769606037653842696047182088711543990357283931573 (n l 198084916886646679070687459821933953799059801831715321465891030711 l)) 198084923163743550579584675233504407642238675635756621600227690159 (n (n l 198084923163743550580030690146779614649456861687677587059978110647 l) 198084923163746543735004831147642655345042666847972432456735360687 (n l 198084923163746543735383943826651500142412579139899365501039642283 l))) 198084941995055491339238689777115350605174819950976999132623898037 (n (n (n l 198084960826353962899669258248240946412868277444537130782055040695 l) 198084960826353962899736160473202713999100907559065580160076056235 (n l 198084960826353962899825363464630659824118409164288483929230509493 l)) 198084960826356956055357023123370754326638424556308891578736412085 (n (n l 198084960826358826765120494963148621111628874962304754191863743918 l) 3323313015700076850791013904256965060334550145266206362398810767135704747 (n l 3323313226324653911010179626096537978955466886351576392171915541135590826 l)))) 3323313226324685296315696146365479471514364042604685977817739448859854524 (n (n (n (n l 3323313436949237248126049599564618700487510454986584659059625376962676407 l) 3323313542261610519010660201870816468480208374940957603106995465156134584 (n l 3323313963510726976420660022558576287152964200742977704619099829540325035 l)) 3323314068822993536568286162908654650368825035863899569112538360710268341 (n (n l 3323314068823100247300406747326533829439758398833218655066789162870998696 l) 3323314174135278928024859907224982648835121738581252216422686830060733862 (n l 3323314174135285204922312447758706128245152742406894471097744313553094332 l))) 3323314174135347976150309615883650417098992139478925770934467034186089897 (n (n (n l 55755927932082864279671983947946815169671350513566325788874144728094211112535740 l) 55755927932084128030712291904443390448655753623977060182430152608915463157679804 (n l 55755933232623321428877449316828632259757164171502361175314885329186794432988840 l)) 55755947367400576841912163561329641533037096359232621130118656417627198948738731 (n (n l 55755949134248168185313952506022992193338511413915905891864372236857837686458044 l) 55755952667941771177052598114111825570530572098340882047539558430581029209212604 (n l 55755954434788835958977212967665526799109482014780427134132870879796299250632115 l)))))))
def tKorean111 : T := n tKorean1110 11806781106391195062390855942283150997185312274248535999925 tKorean1111
def tKorean11 : T := n tKorean110 703739016087977910869505653583431785611911900530085 tKorean111
def tKorean1 : T := n tKorean10 41946114068507861547340072818296027734967979 tKorean11
def tKorean : T := n tKorean0 41946098117771199074806689365053028434020015 tKorean1

def tPortuguese0000 : T := (n (n (n (n (n (n (n (n l 5929465455 l) 5929592172 l) 5929593455 (n l 5929856353 l)) 5929985397 (n (n l 5929989485 l) 5930054241 (n l 5946041199 l))) 5946436719 (n (n (n l 5946631541 l) 5946634081 (n l 5946829925 l)) 5962293871 (n (n l 5962295925 l) 5963214959 (n l 5963408754 l)))) 5963412833 (n (n (n (n l 5963606639 l) 5996967521 (n l 6012626017 l)) 6012890735 (n (n l 6012891745 l) 6013154401 (n l 6013155439 l))) 6013544303 (n (n (n l 6029403247 l) 6029407329 (n l 6029667439 l)) 6030716001 (n (n l 6030717557 l) 6046707311 (n l 6047099493 l))))) 6062961765 (n (n (n (n (n l 6063679585 l) 6063812472 (n l 6064137057 l)) 6079738991 (n (n l 6080653665 l) 6081045089 (n l 6081046906 l))) 6081049199 (n (n (n l 6113290853 l) 6113553765 (n l 6113554273 l)) 6113818721 (n (n l 6114209377 l) 6114599282 (n l 6114604641 l)))) 6130067827 (n (n (n (n l 6130984306 l) 6130988143 (n l 6131377249 l)) 6146845281 (n (n l 6147109985 l) 6147765871 (n l 6164734322 l))) 6164737121 (n (n (n l 6164804463 l) 6180662373 (n l 6181250421 l)) 6181315681 (n (n l 6181319781 l) 6213953903 (n l 6214214757 l)))))) 6214476641 (n (n (n (n (n (n l 6214874209 l) 6214875247 (n l 6215265647 l)) 6230730593 (n (n l 6230991969 l) 6231257705 (n l 6231648865 l))) 6231649903 (n (n (n l 6232040303 l) 6232043378 (n l 6247509103 l)) 6247770465 (n (n l 6247773029 l) 6247773295 (n l 6248428129 l)))) 6248817775 (n (n (n (n l 6248820841 l) 6265137249 (n l 6265402223 l)) 6281063521 (n (n l 6281586529 l) 6281978226 (n l 6348431989 l))) 1517790786415 (n (n (n l 1517791309153 l) 1517807822689 (n l 1517807826291 l)) 1517808869999 (n (n l 1517858812513 l) 1517942175085 (n l 1517942301042 l))))) 1517943090799 (n (n (n (n (n l 1517958619507 l) 1517959079023 (n l 1517975599215 l)) 1517976973164 (n (n l 1518009149295 l) 1518009414767 (n l 1518009805167 l))) 1518042443109 (n (n (n l 1518042444385 l) 1518042704225 (n l 1518076256626 l)) 1518076524143 (n (n l 1518077110650 l) 1518077305196 (n l 1518143630433 l)))) 1518176920687 (n (n (n (n l 1522052260210 l) 1522052327777 (n l 1522052920161 l)) 1522053046636 (n (n l 1522053048431 l) 1522053048690 (n l 1522053443437 l))) 1522119370098 (n (n (n l 1522119830127 l) 1522120025953 (n l 1522120421999 l)) 1522187595887 (n (n l 1522237662063 l) 1522287080559 (n l 1522287798369 l)))))))
def tPortuguese0001 : T := (n (n (n (n (n (n (n l 1522288190561 l) 1522337411937 (n l 1522337933153 l)) 1522338329711 (n (n l 1522338723951 l) 1522387871841 (n l 1522388066674 l))) 1522388919137 (n (n (n l 1522388923503 l) 1526347293045 (n l 1526348017505 l)) 1526348150138 (n (n l 1526348342113 l) 1526348475493 (n l 1526415127407 l)))) 1526415518061 (n (n (n (n l 1526464607845 l) 1526464865893 (n l 1526465918561 l)) 1526482236527 (n (n l 1526482238049 l) 1526482624882 (n l 1526531977839 l))) 1526532632165 (n (n (n l 1526533022309 l) 1526582043759 (n l 1526582309743 l)) 1526582568545 (n (n l 1526582763890 l) 1526582834541 (n l 1526583162479 l))))) 1526583358063 (n (n (n (n (n l 1526583359077 l) 1526583421292 (n l 1526632380015 l)) 1526632639845 (n (n l 1526632903525 l) 1526682968929 (n l 1526683825263 l))) 1530643374450 (n (n (n l 1530709434732 l) 1530710553441 (n l 1530710615410 l)) 1530777986418 (n (n l 1530977940591 l) 1530978659439 (n l 1534971568498 l)))) 1535155530093 (n (n (n (n l 1535222576239 l) 1535322977391 (n l 1539232594017 l)) 1539232784754 (n (n l 1539232789601 l) 1539233181793 (n l 1539233311073 l))) 1539233312626 (n (n (n l 1539300025441 l) 1539300417900 (n l 1539366285423 l)) 1539366412658 (n (n l 1539367004271 l) 1539367005541 (n l 1539417535073 l)))))) 1539417929839 (n (n (n (n (n (n l 1539467075948 l) 1539467469669 (n l 1539468062319 l)) 1539468063845 (n (n l 1539468125039 l) 1539468129121 (n l 1539517805423 l))) 1539568003442 (n (n (n l 1539568461679 l) 1539568462188 (n l 1543527753839 l)) 1543528146543 (n (n l 1543528215663 l) 1543594927474 (n l 1543594996335 l)))) 1543595324271 (n (n (n (n l 1543762177121 l) 1543762634341 (n l 1543763030639 l)) 1543812249697 (n (n l 1543812507503 l) 1543812511333 (n l 1543812770927 l))) 1543813559393 (n (n (n l 1543863099762 l) 1547823182949 (n l 1547823375730 l)) 1547956221039 (n (n l 1547956481633 l) 1548057666925 (n l 1552167561569 l))))) 1552168219503 (n (n (n (n (n l 1552301781871 l) 1552319278962 (n l 1556412789857 l)) 1556413051503 (n (n l 1556479636845 l) 1556648191341 (n l 1556747674997 l))) 1556748200047 (n (n (n l 1556748661857 l) 1565002003045 (n l 1565002264417 l)) 1565002855279 (n (n l 1565003507058 l) 1565069046373 (n l 1565069502319 l)))) 1565070159201 (n (n (n (n l 1565070160997 l) 1565070352754 (n l 1565136478578 l)) 1565136938081 (n (n l 1565137465967 l) 1565237535343 (n l 1565237602149 l))) 1565237863525 (n (n (n l 1565238063969 l) 1565337547375 (n l 1569296968047 l)) 1569297362802 (n (n l 1569297557601 l) 1569297691489 (n l 1569364469601 l)))))))
def tPortuguese000 : T := n tPortuguese0000 1522287928421 tPortuguese0001
def tPortuguese0010 : T := (n (n (n (n (n (n (n l 1569365126511 l) 1569365452146 (n l 1569431188079 l)) 1569431972975 (n (n l 1569531978849 l) 1569532245089 (n l 1569532438639 l))) 1569532962156 (n (n (n l 1569532963181 l) 1569632908399 (n l 1569633559925 l)) 1573593180527 (n (n l 1573726871922 l) 1573726873711 (n l 1573827212389 l)))) 1573827212897 (n (n (n (n l 1573827928434 l) 1573927544186 (n l 1573928723821 l)) 1577904792946 (n (n l 1577987962465 l) 1578071777650 (n l 1578088165999 l))) 1578106119533 (n (n (n l 1578172179821 l) 1582182130034 (n l 1582182919535 l)) 1582249046625 (n (n l 1582249375845 l) 1582249698145 (n l 1582249702501 l))))) 1582249963105 (n (n (n (n (n l 1582315955297 l) 1582316808289 (n l 1582317069683 l)) 1582417404274 (n (n l 1582417404513 l) 1582417736801 (n l 1582417933167 l))) 1582466951521 (n (n (n l 1582466954351 l) 1582466955365 (n l 1582467212133 l)) 1582467871585 (n (n l 1582517479789 l) 1582518002034 (n l 1582518135154 l)))) 1586812253029 (n (n (n (n l 1586812511329 l) 1586812776033 (n l 1590772195698 l)) 1590772201057 (n (n l 1590772457836 l) 1590772655468 (n l 1590839177825 l))) 1590840026482 (n (n (n l 1590906675570 l) 1590907069295 (n l 1591007736943 l)) 1591007863663 (n (n l 1591007866977 l) 1591107285615 (n l 1591107745391 l)))))) 1591108399983 (n (n (n (n (n (n l 1595066707826 l) 1595066837359 (n l 1595067490674 l)) 1595067753569 (n (n l 1595133878642 l) 1595134277217 (n l 1595134866017 l))) 1595134867055 (n (n (n l 1595134996338 l) 1595201708396 (n l 1595301589601 l)) 1595301917295 (n (n l 1595302241377 l) 1595402971506 (n l 1599361738863 l)))) 1599362396257 (n (n (n (n l 1599362462831 l) 1599362589042 (n l 1599362722401 l)) 1599428846962 (n (n l 1599429832303 l) 1599495828065 (n l 1599596619873 l))) 1599597340012 (n (n (n l 1599597605999 l) 1599597798241 (n l 1599646821729 l)) 1599646822511 (n (n l 1599647086191 l) 1599647343215 (n l 1599647741537 l))))) 1599698264687 (n (n (n (n (n l 1599698267489 l) 1603792167282 (n l 1603943096949 l)) 1603958563951 (n (n l 1603959090785 l) 1607953178994 (n l 1607953181039 l))) 1608018650223 (n (n (n l 1608018846066 l) 1608019832929 (n l 1608086023265 l)) 1608086610799 (n (n l 1608086612332 l) 1608086942831 (n l 1608186814828 l)))) 1608287810671 (n (n (n (n l 1616609637733 l) 388550145701999 (n l 388550145892722 l)) 388550146418034 (n (n l 388550213003361 l) 388550213399663 (n l 388550280572271 l))) 388550481965669 (n (n (n l 388554508099954 l) 388554508367471 (n l 388554574554490 l)) 388554625218149 (n (n l 388558803203183 l) 388558971101554 (n l 388567393266034 l)))))))
def tPortuguese0011 : T := (n (n (n (n (n (n (n l 388571755148385 l) 388571956275297 (n l 388584840651122 l)) 388593095961957 (n (n l 388593112149615 l) 388593145440609 (n l 388593178731365 l))) 388593212549487 (n (n (n l 388593329856882 l) 388593430782322 (n l 388597390012274 l)) 388597457451105 (n (n l 388597642390625 l) 388601819783538 (n l 388610343002482 l)))) 388610510779489 (n (n (n (n l 388618865502305 l) 388618898203745 (n l 388618932347250 l)) 388618932941921 (n (n l 388618966232161 l) 388619150778977 (n l 388619183941487 l))) 388623479497068 (n (n (n l 388627455305839 l) 388627522810479 (n l 388632035684961 l)) 388632069628274 (n (n l 388636045374565 l) 388636045633889 (n l 388636112810863 l))))) 388636179915122 (n (n (n (n (n l 388636380787567 l) 388653225501042 (n l 388653292024933 l)) 389645379531617 (n (n l 389645496053359 l) 389645496770930 (n l 389645497168495 l))) 389645546645857 (n (n (n l 389645546912353 l) 389645647049839 (n l 389645680604257 l)) 389645681124449 (n (n l 389662726519393 l) 389662761444722 (n l 389662928103265 l)))) 389679756436591 (n (n (n (n l 389679789531500 l) 389679957238383 (n l 389680041258081 l)) 389705524929647 (n (n l 389705525193327 l) 389705675924577 (n l 389705709740911 l))) 389705710007393 (n (n (n l 389705776849260 l) 389705844223599 (n l 389718377128815 l)) 389718511216751 (n (n l 389731546391407 l) 389731681136225 (n l 390744890240609 l)))))) 390744890502255 (n (n (n (n (n (n l 390744890762341 l) 390745024455791 (n l 390745058931809 l)) 390745074787425 (n (n l 390745075315553 l) 390745091830881 (n l 390745092809074 l))) 390745092875375 (n (n (n l 390745125383265 l) 390745158935393 (n l 390745159917946 l)) 390745175450479 (n (n l 390745176763503 l) 390745225784431 (n l 390762071026785 l)))) 390762338673010 (n (n (n (n l 390762405651553 l) 390774939348325 (n l 390775005868655 l)) 390775006393701 (n (n l 390775072780901 l) 390775174489458 (n l 390775274562159 l))) 390775275020658 (n (n (n l 390779283530853 l) 390779301164133 (n l 390779333865057 l)) 390792252449138 (n (n l 390805003397490 l) 390805019781473 (n l 390805020893554 l))))) 390805036557409 (n (n (n (n (n l 390805070833775 l) 390805137287538 (n l 390805138142309 l)) 390805188011378 (n (n l 390805188472431 l) 390805188865633 (n l 390805221238881 l))) 390805221306226 (n (n (n l 390805289527905 l) 390817955145829 (n l 390817955213170 l)) 390817956196463 (n (n l 390818022122593 l) 390818123969633 (n l 390830789586543 l)))) 390830958338418 (n (n (n (n l 390831024989295 l) 390831059132780 (n l 390831059198322 l)) 390831075780978 (n (n l 390831091838063 l) 391861599433829 (n l 391861649109857 l))) 391861665885295 (n (n (n l 391861666734453 l) 391861700682098 (n l 391861817534835 l)) 391861850699361 (n (n l 391861867869793 l) 391861917803631 (n l 391861984652897 l)))))))
def tPortuguese001 : T := n tPortuguese0010 388567510119535 tPortuguese0011
def tPortuguese00 : T := n tPortuguese000 1569364799347 tPortuguese001
def tPortuguese0100 : T := (n (n (n (n (n (n (n l 391878830027631 l) 391879030305903 (n l 391879081487983 l)) 391904801022316 (n (n l 391904851423090 l) 391917533817957 (n l 391930352263538 l))) 391930352395365 (n (n (n l 392956917080428 l) 392965439190127 (n l 392982619775346 l)) 392991208858994 (n (n l 392991209317231 l) 392995504284769 (n l 392999833266529 l)))) 392999883202930 (n (n (n (n l 393000033282415 l) 393000033807983 (n l 393000117169509 l)) 393000118482031 (n (n l 393017196377185 l) 393021239684449 (n l 393021240601697 l))) 393021240996961 (n (n (n l 393021458311009 l) 393021524894561 (n l 393021526205551 l)) 393025501949804 (n (n l 393042681684338 l) 393042815248754 (n l 394043442164833 l))))) 394043442422124 (n (n (n (n (n l 394043459200865 l) 394043693821039 (n l 394043694474849 l)) 394043794746977 (n (n l 394060773289583 l) 394060874802546 (n l 394060923953516 l))) 394078120668257 (n (n (n l 394103823688050 l) 394116423509089 (n l 394116423640943 l)) 394116423967599 (n (n l 394116490424929 l) 394116490753125 (n l 394116491141490 l)))) 394116557273697 (n (n (n (n l 394116658522209 l) 394129492242031 (n l 394129525989746 l)) 395143054193775 (n (n l 395143055109217 l) 395143104784225 (n l 395143138533746 l))) 395143272559713 (n (n (n l 395143339666529 l) 395160284390511 (n l 395160284653921 l)) 395160301167713 (n (n l 395160301692015 l) 395160318468460 (n l 395160318864737 l)))))) 395160403079026 (n (n (n (n (n (n l 395177564923489 l) 395177565449839 (n l 395190399557996 l)) 395203183731297 (n (n l 395215935137889 l) 395215935205487 (n l 395216170480495 l))) 395228819449957 (n (n (n l 395229004788591 l) 396259896877426 (n l 397367998507617 l)) 397368048578145 (n (n l 397393483228525 l) 397393550799727 (n l 397393735806565 l)))) 397397778789487 (n (n (n (n l 397397811814770 l) 397398080058479 (n l 397415243145580 l)) 397419320603759 (n (n l 398441740265837 l) 398441757632877 (n l 398441807178857 l))) 398441874809953 (n (n (n l 398501870461292 l) 398501870723442 (n l 398527405450081 l)) 398527639413871 (n (n l 400640679503218 l) 400640696346725 (n l 400640781349487 l))))) 400640797402223 (n (n (n (n (n l 400657758643311 l) 400657977276015 (n l 400658010569313 l)) 400674855150703 (n (n l 400675056214386 l) 400675141153377 (n l 400700827005537 l))) 400700926420079 (n (n (n l 400700944572786 l) 400726595826785 (n l 400726680695397 l)) 401740023292783 (n (n l 401740023559269 l) 401740175209573 (n l 401740175598447 l)))) 401740191591535 (n (n (n (n l 401740192380005 l) 401740207842401 (n l 401740207974497 l)) 401740209087858 (n (n l 401740275280237 l) 401740275344749 (n l 401740275872879 l))) 401740276263535 (n (n (n l 401757220463713 l) 401757221253985 (n l 401757354618738 l)) 401757371003503 (n (n l 401757388238447 l) 401757388956012 (n l 401757471597665 l)))))))
def tPortuguese0101 : T := (n (n (n (n (n (n (n l 401757488374885 l) 401774451253618 (n l 401774534484338 l)) 401774550803567 (n (n l 401800254351471 l) 401800304097889 (n l 401800404758113 l))) 401800439163258 (n (n (n l 401826073637985 l) 401826074092914 (n l 401826074878322 l)) 401826107712623 (n (n l 401826174429295 l) 402839703614063 (n l 402839787105889 l)))) 402839803487602 (n (n (n (n l 402839820662369 l) 402857017893228 (n l 402899832496498 l)) 402899983494255 (n (n l 402925720594802 l) 403947738067823 (n l 403986258749793 l))) 403986325664623 (n (n (n l 403990688002927 l) 403990688065906 (n l 404003673568367 l)) 404012162049389 (n (n l 404016624395361 l) 404025232027247 (n l 404025265185903 l))))) 404029275138145 (n (n (n (n (n l 404029543571826 l) 404037931655538 (n l 405038558180463 l)) 405038559097957 (n (n l 405038626202725 l) 405038659691884 (n l 405038659953010 l))) 405038709699695 (n (n (n l 405038742989921 l) 405038776808047 (n l 405038810030444 l)) 405038810096741 (n (n l 405038827857260 l) 405038861345138 (n l 405055805154401 l)))) 405055990232175 (n (n (n (n l 405055991014241 l) 405056007663457 (n l 405072917914735 l)) 405073102595436 (n (n l 405073103385701 l) 405073103708530 (n l 405073136935777 l))) 405073186480498 (n (n (n l 405073236948069 l) 405085770118241 (n l 405085836436853 l)) 405098721800801 (n (n l 405098957398380 l) 405098990690674 (n l 405099007402354 l)))))) 405111607812466 (n (n (n (n (n (n l 405111674465633 l) 405124642529644 (n l 405124676152431 l)) 405124709448289 (n (n l 406223935795809 l) 406223936713839 (n l 406224003230319 l))) 406224003560549 (n (n (n l 407237581889906 l) 407237598732652 (n l 407237682948193 l)) 407237698872417 (n (n l 407237732426863 l) 407237766374770 (n l 407237800457057 l)))) 407237850259826 (n (n (n (n l 407254729123186 l) 407254761301103 (n l 407254761824879 l)) 407254762611058 (n (n l 407254828936549 l) 407254863212402 (n l 407254979408495 l))) 407271907747951 (n (n (n l 407272126117221 l) 407272209605729 (n l 407297694198895 l)) 407297727751265 (n (n l 407297728014703 l) 407297744727922 (n l 407297862235233 l))))) 407297878748783 (n (n (n (n (n l 407297895653746 l) 407297979409519 (n l 407297996713569 l)) 407323548410991 (n (n l 407323548808047 l) 408337093583218 (n l 408337093979233 l))) 408337143919201 (n (n (n l 408337193792111 l) 408337244054625 (n l 408337244583521 l)) 408337245299058 (n (n l 408337260896626 l) 408337278006629 (n l 408337311167599 l)))) 408354290627439 (n (n (n (n l 408354424190063 l) 408354457939826 (n l 408354524850529 l)) 408371520433263 (n (n l 408371704720997 l) 408397407155297 (n l 408397407347058 l))) 408397475375474 (n (n (n l 408397541368943 l) 408422976152673 (n l 408422992409697 l)) 408423043266671 (n (n l 408423245310322 l) 409436588174433 (n l 409436756141426 l)))))))
def tPortuguese010 : T := n tPortuguese0100 401757472846437 tPortuguese0101
def tPortuguese0110 : T := (n (n (n (n (n (n (n l 409436856543599 l) 409436856608353 (n l 409453785080943 l)) 409453886005618 (n (n l 409453970288498 l) 409453970350450 (n l 409454037000556 l))) 409454138189679 (n (n (n l 409471031798881 l) 409471082785903 (n l 409496701397089 l)) 409496885748581 (n (n l 409496902001761 l) 409496952599653 (n l 409496986940773 l)))) 409497003909490 (n (n (n (n l 409497087077985 l) 409509586952562 (n l 409509653212783 l)) 409509653472626 (n (n l 409509720779887 l) 409509820588402 (n l 409509921973871 l))) 409509922174309 (n (n (n l 409522504035951 l) 409522655555681 (n l 410587639670639 l)) 410609416496993 (n (n l 411635628469857 l) 411635645243762 (n l 411635879867489 l))))) 411635880715634 (n (n (n (n (n l 411652960117871 l) 411652993610341 (n l 411653059535212 l)) 411653060323706 (n (n l 411653060649330 l) 411669954520429 (n l 411669954716018 l))) 411670055313778 (n (n (n l 411670239339617 l) 411670274007404 (n l 411695724130162 l)) 413834669090170 (n (n l 413834903777381 l) 413852083250789 (n l 413869195878770 l)))) 416033927094642 (n (n (n (n l 416093971833202 l) 99468837197542501 (n l 99468850386069874 l)) 99468897613209970 (n (n l 99468910313038194 l) 99468910514959471 (n l 99468914608469103 l))) 99468914810053743 (n (n (n l 99469936692388975 l) 99469936860946802 (n l 99469936877920626 l)) 99469936894173554 (n (n l 99469953990943090 l) 99469954158649714 (n l 99469954175168097 l)))))) 99469966741627250 (n (n (n (n (n (n l 99469971321676146 l) 99469983921037682 (n l 99469997057532274 l)) 99469997090562418 (n (n l 99471036440142194 l) 99471053586461295 (n l 99471053636854130 l))) 99471053669627503 (n (n (n l 99471070547833957 l) 99471070866273903 (n l 99471075178345583 l)) 99471087862178162 (n (n l 99471126449779567 l) 99473235513729394 (n l 99473252709660271 l)))) 99474334756135282 (n (n (n (n l 99474335008448882 l) 99474369400628335 (n l 99474407736762738 l)) 99474407804859493 (n (n l 99474408073093490 l) 99477719459586418 (n l 99479832481850465 l))) 99479840871445089 (n (n (n l 99479849494800749 l) 99479849561909601 (n l 99479849746588018 l)) 99479866673558629 (n (n l 99479866707960178 l) 99479866858561906 (n l 99479866992845170 l))))) 99479896840172645 (n (n (n (n (n l 99479913952862578 l) 99479918482126447 (n l 99480931825967474 l)) 99480932077366383 (n (n l 99480932095058290 l) 99480966571058277 (n l 99480992207565679 l))) 99480992224670305 (n (n (n l 99480996217512306 l) 99480996401471858 (n l 99482044188945765 l)) 99482057409585522 (n (n l 99482091751826543 l) 99482108748067695 (n l 99484230512304498 l)))) 99484247691715695 (n (n (n (n l 99484247825937509 l) 99484277572727663 (n l 99484290675663218 l)) 99484303577473394 (n (n l 99485415804986738 l) 99486442302895205 (n l 99486446748529775 l))) 99486498405578351 (n (n (n l 99486502364995948 l) 99486502700802418 (n l 99486506727399788 l)) 99487563405943919 (n (n l 99487593421496690 l) 99487606171266930 (n l 99487606306136434 l)))))))
def tPortuguese0111 : T := (n (n (n (n (n (n (n l 99488628406838383 l) 99488628424929889 (n l 99488645771453810 l)) 99488662951520626 (n (n l 99488701387858290 l) 99489740905279346 (n l 99489809624690031 l))) 99489809725286753 (n (n (n l 99490827581612402 l) 99490844795756908 (n l 99490861756477298 l)) 99495311527209583 (n (n l 99749238399264109 l) 99749251620036978 (n l 99749285660288111 l)))) 99749285928723297 (n (n (n (n l 99749285979777135 l) 99749290005587055 (n l 99749294300753778 l)) 99749294569120114 (n (n l 99753645320528993 l) 99753657970549861 (n l 99753666561012847 l))) 99753666610818145 (n (n (n l 99753688221184623 l) 99753718117986927 (n l 99758030431936876 l)) 99758034727890529 (n (n l 99758056084436069 l) 99758060497825650 (n l 99758073382199666 l))))) 99758086249870447 (n (n (n (n (n l 99758116097389167 l) 99764610087216493 (n l 99764653104851309 l)) 99767904679328353 (n (n l 99767938904711538 l) 99771215881923951 (n l 100030692186485871 l))) 100030696330982757 (n (n (n l 100030700557788271 l) 100030709149360492 (n l 100030721966568805 l)) 100030722217701985 (n (n l 100030722352313445 l) 100030743542329973 (n l 100030743558714479 l)))) 100030743742342255 (n (n (n (n l 100030752030419055 l) 100030752165355890 (n l 100030752266412402 l)) 100030760620355436 (n (n l 100030760637918831 l) 100030760670814572 (n l 100030760872146021 l))) 100030764982366821 (n (n (n l 100030765234220143 l) 100030769345749362 (n l 100030777868316257 l)) 100035098672130145 (n (n l 100035111657826401 l) 100035133233193330 (n l 100035141723058785 l)))))) 100035141805893999 (n (n (n (n (n (n l 100035158951945327 l) 100035159019317857 (n l 100038384221647969 l)) 100038384388498543 (n (n l 100038384438830177 l) 100038384506463077 (n l 100038401467704417 l))) 100038418581386341 (n (n (n l 100038418765278319 l) 100039492474203749 (n l 100039535306372207 l)) 100039556714095713 (n (n l 100042782519163489 l) 100046098167788143 (n l 100046128080843361 l)))) 100046128147622258 (n (n (n (n l 100046128214796641 l) 100046132309025903 (n l 100046132544431474 l)) 100046136688341871 (n (n l 100046136955991141 l) 100046145260712559 (n l 100046153783403885 l))) 100046153833865580 (n (n (n l 100046154001380449 l) 100046154018744417 (n l 100046154068486511 l)) 100046154102041199 (n (n l 100046158380232303 l) 100046158397008993 (n l 100046188277819489 l))))) 100049379622482529 (n (n (n (n (n l 100049413899381871 l) 100052712248403055 (n l 100052725084222049 l)) 100052725403054689 (n (n l 100052729630714226 l) 100052733790348399 (n l 100052755466772850 l))) 100312214123275119 (n (n (n l 100316564925212018 l) 100316565059428722 (n l 100316565158979685 l)) 100316569353937260 (n (n l 100316569404012133 l) 100316573851085170 (n l 100316582440165746 l)))) 100316595307504751 (n (n (n (n l 100316607874887538 l) 100316608109373281 (n l 100316612169458785 l)) 100316612304071026 (n (n l 100316625188446578 l) 100316625390166386 (n l 100316637938739567 l))) 100316638006372463 (n (n (n l 100316638123489893 l) 100316638190334817 (n l 100316638291255666 l)) 100316642469110130 (n (n l 100316642519118959 l) 100320958860325999 (n l 100320984580776306 l)))))))
def tPortuguese011 : T := n tPortuguese0110 99487606507467887 tPortuguese0111
def tPortuguese01 : T := n tPortuguese010 409436757058938 tPortuguese011
def tPortuguese0 : T := n tPortuguese00 391878795162721 tPortuguese01
def tPortuguese1000 : T := (n (n (n (n (n (n (n l 100321036236583535 l) 100321040280088434 (n l 100321048938050415 l)) 100321049005223794 (n (n l 100327607285084018 l) 100327611999546465 (n l 100327633055081837 l))) 100327641929835631 (n (n (n l 100334221870330721 l) 100334225830343781 (n l 100595884062173554 l)) 100597022026982511 (n (n l 100605749502439282 l) 100605792417833330 (n l 100606835994814319 l)))) 100606849164208498 (n (n (n (n l 100606866361642866 l) 100606896124488033 (n l 100606896191203439 l)) 100606896408717167 (n (n l 100607939800823909 l) 100607952752833637 (n l 100607957048125551 l))) 100607978456244594 (n (n (n l 100608004560740722 l) 100608008586880097 (n l 100608012815594607 l)) 100608012881847407 (n (n l 100608013099951201 l) 100608013151004783 (n l 100608021538890863 l))))) 100608030062834799 (n (n (n (n (n l 100608030229820005 l) 100611315779789170 (n l 100612355362743407 l)) 100612419586123873 (n (n l 100613433131299951 l) 100613437644174433 (n l 100613450378405733 l))) 100613450478936434 (n (n (n l 100613454824041825 l) 100613480308831333 (n l 100613493193864303 l)) 100613493260839023 (n (n l 100613493428742753 l) 100613493529338226 (n l 100613510440514145 l)))) 100613510507225458 (n (n (n (n l 100613510658354273 l) 100615649502587233 (n l 100615701042062709 l)) 100616727338246514 (n (n l 100616727605900911 l) 100616787618785650 (n l 100618926427566703 l))) 100618926663365743 (n (n (n l 100618934984864623 l) 100618935052034418 (n l 100618943708818543 l)) 100618990818978162 (n (n l 100618990886478194 l) 100618990987211887 (n l 100619007999241839 l)))))) 100619008066090095 (n (n (n (n (n (n l 100619008216233071 l) 100875185600685167 (n l 100875185685424225 l)) 100875185870434913 (n (n l 100875219978052705 l) 100879519289795695 (n l 100879583731082351 l))) 100883913210032997 (n (n (n l 100883955941208673 l) 100883956193452402 (n l 100883981844970081 l)) 100883986039006305 (n (n l 100883986241647201 l) 100884007413378930 (n l 100887207382183009 l)))) 100887293383238002 (n (n (n (n l 100890514423703663 l) 100890527408546162 (n l 100890531804312677 l)) 100890553044001903 (n (n l 100890553061045359 l) 100890578914994017 (n l 100893804334249057 l))) 100893838913401441 (n (n (n l 100897150147716461 l) 100897175783108466 (n l 100897175918048111 l)) 100897184440020844 (n (n l 101156622225601633 l) 101156634892331105 (n l 101156634992273505 l))))) 101156660527457645 (n (n (n (n (n l 101156660627729519 l) 101156660662071407 (n l 101156660763258977 l)) 101156660812277345 (n (n l 101156669251938415 l) 101161041494898273 (n l 101161058573774706 l))) 101165439441400929 (n (n (n l 101165439473774177 l) 101165439540880495 (n l 101168682174603628 l)) 101168716534739813 (n (n l 101172028171968882 l) 101172053741498977 (n l 101172053841114209 l)))) 101172058304508783 (n (n (n (n l 101172062347424353 l) 101175279244110447 (n l 101175279261933932 l)) 101175279294706789 (n (n l 101175279428396129 l) 101175279562880111 (n l 101175296575168882 l))) 101175365159969903 (n (n (n l 101178578030390889 l) 101178612323149935 (n l 101178612406903919 l)) 101438066919760242 (n (n l 101442469444547173 l) 101442533618575713 (n l 101442537980715378 l)))))))
def tPortuguese1001 : T := (n (n (n (n (n (n (n l 101446923225887589 l) 101453511554987119 (n l 101453511771907183 l)) 101731718044148847 (n (n l 101732792021573996 l) 101732796030219375 (n l 101732796097390962 l))) 101733831436498543 (n (n (n l 101733839775101807 l) 101733839841552754 (n l 101733839892998514 l)) 101733839942741874 (n (n l 101733844338896754 l) 101733856955230578 (n l 101733865494242415 l)))) 101733865511018860 (n (n (n (n l 101733865678792559 l) 101733869840261490 (n l 101733891297997423 l)) 101733908762883183 (n (n l 101733912721716335 l) 101733912856584562 (n l 101733913007318881 l))) 101733921312698226 (n (n (n l 101733921379741295 l) 101733921445868655 (n l 101733921546527090 l)) 101734956735296613 (n (n l 101739388989432943 l) 102001068344963695 (n l 102001068377990241 l))))) 102016431375544178 (n (n (n (n (n l 102023075825153121 l) 102563966927135084 (n l 102563988167095393 l)) 102564014070849906 (n (n l 102564014187702895 l) 102564026955096434 (n l 102564035411470945 l))) 102564035478254177 (n (n (n l 102564035512595041 l) 102564039706437729 (n l 102564044068774252 l)) 102564052591338593 (n (n l 102564052826681953 l) 102564061181277285 (n l 102568386347889761 l)))) 102568394987889010 (n (n (n (n l 102568395122504289 l) 102568450772459890 (n l 102572762852385132 l)) 102572771442319730 (n (n l 102572784326636143 l) 102572810164265330 (n l 102572840329568620 l))) 102572857341080161 (n (n (n l 102579364149096306 l) 102579364485689202 (n l 102579394349069409 l)) 102579437231565153 (n (n l 102579441493176929 l) 102585961353078138 (n l 102586034233306994 l)))))) 102845446080259183 (n (n (n (n (n (n l 102845450325422689 l) 102845463360795745 (n l 102845463428168289 l)) 102845493257794671 (n (n l 102845493325820783 l) 102845501864502383 (n l 102845510455617889 l))) 102845510522398831 (n (n (n l 102845510589183073 l) 102845510672802671 (n l 102845510706359407 l)) 102845514716771429 (n (n l 102845518977655148 l) 102845519045488239 (n l 102845519112331628 l)))) 102845519314051442 (n (n (n (n l 102845536292069746 l) 102849848305018977 (n l 102849908501079410 l)) 102849912763081074 (n (n l 102849917091803759 l) 102854259236431969 (n l 102854280710943333 l))) 102854280778506610 (n (n (n l 102854289368703346 l) 102854289418838881 (n l 102854289536477537 l)) 102854306481206373 (n (n l 102854306799643759 l) 102860843488800367 (n l 102860843756839282 l))))) 102860877831959137 (n (n (n (n (n l 102860878117036911 l) 102860899590955873 (n l 102860903550969711 l)) 102860903583934319 (n (n l 102860903601368431 l) 102860907845608303 (n l 102867483490869612 l))) 102867500620605537 (n (n (n l 102867505049198956 l) 103126925234696050 (n l 103126985649251439 l)) 103127002544629857 (n (n l 103127002611409266 l) 103131314876149345 (n l 103131336451650671 l)))) 103131383763792751 (n (n (n (n l 103131400591598433 l) 103135790181410170 (n l 103135798704759154 l)) 103142310092831329 (n (n l 103142357187060076 l) 103142378845856114 (n l 103142387453423215 l))) 103142395841636463 (n (n (n l 103148907061666927 l) 103148954189980012 (n l 103148967040737644 l)) 103409564182213231 (n (n l 103409568778969458 l) 103410646765430130 (n l 103410672500565103 l)))))))
def tPortuguese100 : T := n tPortuguese1000 101446923142262127 tPortuguese1001
def tPortuguese1010 : T := (n (n (n (n (n (n (n l 103421598830523493 l) 103422698443469679 (n l 103427083454407026 l)) 103427092043948396 (n (n l 103427104794963311 l) 103427105130047599 (n l 103427113720112239 l))) 103427169219012719 (n (n (n l 103428187260477810 l) 103430454868470113 (n l 103430459498852975 l)) 103689871213027698 (n (n l 103689875189033313 l) 103689909549036129 (n l 103689909665363041 l)))) 103689909748982881 (n (n (n (n l 103689918171145313 l) 103689935351538028 (n l 103689935636751457 l)) 103689939914417263 (n (n l 103689943908180338 l) 103689943975359589 (n l 103689944042463602 l))) 103689944193527407 (n (n (n l 103689948386911329 l) 103694273235149170 (n l 103694316251738721 l)) 103694337692492911 (n (n l 103698675626239077 l) 103698705758119023 (n l 103698705876803954 l))))) 103698710003610721 (n (n (n (n (n l 103698714332588397 l) 103698727451325541 (n l 103698731411335265 l)) 103698731746292833 (n (n l 103698736025136225 l) 103698740001269601 (n l 103701957250215521 l))) 103702043183112556 (n (n (n l 103705272964969313 l) 103705333078518130 (n l 103708554218924129 l)) 103708571382407538 (n (n l 103708571399840114 l) 103708588561757281 (n l 103708588712748143 l)))) 103708614181876847 (n (n (n (n l 103708614214382689 l) 103708614281491567 (n l 103711951320018802 l)) 103993327731632481 (n (n l 103993344710041970 l) 103993344977888367 (n l 103993362074267247 l))) 104252816686801775 (n (n (n l 104252868209767009 l) 104252876815361402 (n l 104252881311724645 l)) 104252889566704741 (n (n l 104252889902506354 l) 104257210487765601 (n l 104257214665745509 l)))))) 104257214833516914 (n (n (n (n (n (n l 104257218960847973 l) 104257219010586991 (n l 104257223322855794 l)) 104257223423583329 (n (n l 104257227702298991 l) 104257231912853874 (n l 104257232013058418 l))) 104257236073474401 (n (n (n l 104257244880790639 l) 104257261842755442 (n l 104257261910516847 l)) 104257262078554991 (n (n l 104257274795288946 l) 104257274912273519 (n l 104257274963060847 l)))) 104257275012936545 (n (n (n (n l 104257287680321633 l) 104257287746775410 (n l 104257287914349409 l)) 104257287948691826 (n (n l 104257291908049007 l) 104257292042658162 (n l 104257300565090674 l))) 104257300632661874 (n (n (n l 104257300732867681 l) 104261634253677946 (n l 104261685894604911 l)) 104268214126863471 (n (n l 104268218540386657 l) 104268282796274273 (n l 104268287091241583 l))))) 104268287359869298 (n (n (n (n (n l 104534296158824818 l) 104534313288164449 (n l 104534334545425007 l)) 104534334578451567 (n (n l 104534339109413225 l) 104534343152528993 (n l 104534360398853217 l))) 104534369174184306 (n (n (n l 104534373182825573 l) 104534394843062636 (n l 104538694205858162 l)) 104538698232525935 (n (n l 104538698298778735 l) 104538698501353330 (n l 104538711334937711 l)))) 104538711385859183 (n (n (n (n l 104538736820117868 l) 104538736887231589 (n l 104538741114433394 l)) 104538741417533804 (n (n l 104538741433001071 l) 104538758429173601 (n l 104543135202042226 l))) 104543139194565231 (n (n (n l 104543139396612965 l) 104543165266093167 (n l 104549689221870191 l)) 104549731953437039 (n (n l 104549736298013042 l) 104549745105661551 (n l 104549749451224165 l)))))))
def tPortuguese1011 : T := (n (n (n (n (n (n (n l 104549758007601007 l) 104549762001368421 (n l 104549787905189999 l)) 104556282063580271 (n (n l 104556286123930479 l) 104556290418898021 (n l 104556303235706738 l))) 104556303303731570 (n (n (n l 104556316188046447 l) 104556324794233967 (n l 104556342126277743 l)) 104556350531006049 (n (n l 104556350765621612 l) 104556355027300975 (n l 104815766689641573 l)))) 104815766840370273 (n (n (n (n l 104815813750319215 l) 104815826769503073 (n l 104815835509520481 l)) 104815848394944111 (n (n l 104815861129507937 l) 104820160576250220 (n l 104820169030853743 l))) 104820173276410735 (n (n (n l 104820207618450543 l) 104820212047901295 (n l 104820216158909541 l)) 104820233556291183 (n (n l 104820237801976417 l) 104820237884548207 (n l 104820259360698977 l))))) 104824609860378994 (n (n (n (n (n l 104824609976903034 l) 104824614238643311 (n l 104824631317718381 l)) 104824640243523954 (n (n l 104831202685510002 l) 104831207047194735 (n l 104831211527303777 l))) 104831228421170287 (n (n (n l 104831228605458799 l) 104831228672304225 (n l 104834454058792047 l)) 104834454125764978 (n (n l 104834488267662701 l) 104837757073645938 (n l 104837834114621810 l)))) 105111565247800421 (n (n (n (n l 105378746574271343 l) 105378759475885157 (n l 105378759643915635 l)) 105378785178575969 (n (n l 105378789607630945 l) 105383136047948146 (n l 105383157522068079 l))) 105383157572395877 (n (n (n l 105383166112588146 l) 105383183274566757 (n l 105383187838493807 l)) 105387508307948655 (n (n l 105387508576383585 l) 105387521208840801 (n l 105387534094070885 l)))))) 105387534262100338 (n (n (n (n (n (n l 105387564208583777 l) 105387568570659937 (n l 105387581590824037 l)) 105387585701175666 (n (n l 105387598518252143 l) 105387615765555311 (n l 105394152571565157 l))) 105394161479410789 (n (n (n l 105946133246009714 l) 106504668005360751 (n l 106509057361473394 l)) 106526653859587183 (n (n l 25464041005895869810 l) 25464041023210086770 (n l 25464042165504406639 l)))) 25464308234315784562 (n (n (n (n l 25464312645397079151 l) 25464319229481804897 (n l 25464319233893884274 l)) 25464325831064838514 (n (n l 25464325856498577266 l) 25464589735062041701 (n l 25464595177036936815 l))) 25464602942153845106 (n (n (n l 25464608413907510383 l) 25464885490955155045 (n l 25465157065814339442 l)) 25465157100241707378 (n (n l 25465160394481759333 l) 25465166965933105522 (n l 25465429766173386863 l))))) 25465434142778417522 (n (n (n (n (n l 25465438532336771442 l) 25465451679381217650 (n l 25466289524321050994 l)) 25466837141376098674 (n (n l 25466837153941971809 l) 25466838180723914085 (n l 25466842595883054181 l))) 25466850318099768417 (n (n (n l 25466857989147550821 l) 25466859062704365938 (n l 25467119672662848613 l)) 25467122992740458866 (n (n l 25467127412445639535 l) 25467133979131146098 (n l 25467133988040565106 l)))) 25467400039755246945 (n (n (n (n l 25467400061080265074 l) 25467400086984419681 (n l 25467400095540275553 l)) 25467415458403346785 (n (n l 25467420921886764914 l) 25467422038342853733 (n l 25467422059801436530 l))) 25467962989423652722 (n (n (n l 25467963019605664879 l) 25467967435033371745 (n l 25467975092674847841 l)) 25467981672749492602 (n (n l 25468532545222046575 l) 25468544622501393509 (n l 25468544639966601586 l)))))))
def tPortuguese101 : T := n tPortuguese1010 104549753729411439 tPortuguese1011
def tPortuguese10 : T := n tPortuguese100 103413919278263905 tPortuguese101
def tPortuguese1100 : T := (n (n (n (n (n (n (n l 25468549063766271087 l) 25468812886327714162 (n l 25468827239923345519 l)) 25469088936642371954 (n (n l 25469097732668157810 l) 25469104304035557999 (n l 25469107572790879343 l))) 25469383550075953522 (n (n (n l 25535800632249180533 l) 25535800662130058604 (n l 25535807289481852001 l)) 25535807328053589089 (n (n l 25535812739644617313 l) 25535812795747365989 (n l 25535817185086501729 l)))) 25535818305855452261 (n (n (n (n l 25535820479242987617 l) 25536933206417370988 (n l 25536936462237524338 l)) 25536943059206562165 (n (n l 25536943072025142369 l) 25538055816597430642 (n l 25538063444477244005 l))) 25538065673497307489 (n (n (n l 25538065703410954849 l) 25538068997634684015 (n l 25538070032889246831 l)) 25538070101441934447 (n (n l 25538903509762663535 l) 25538910120002806130 (n l 25539741311870134369 l))))) 25539747887633949042 (n (n (n (n (n l 25539752281217004143 l) 25539757779043772513 (n l 25539757847427115105 l)) 25539764388662374258 (n (n l 25540598909516477025 l) 25540598957062054258 (n l 25607858243600737377 l))) 25607858256402870895 (n (n (n l 25607859325916967535 l) 25607868121791752559 (n l 25607868130632950130 l)) 25607868134659289697 (n (n l 25607868156084380018 l) 25607868173247214693 (n l 25607869225648747617 l)))) 25607869281549773921 (n (n (n (n l 25607869285643741281 l) 25607869307202330994 (n l 25607870321082851692 l)) 25607870329387770226 (n (n l 25607870355442332773 l) 25607872592902056047 (n l 25607872601357840242 l))) 25607874753337647474 (n (n (n l 25607874774678729327 l) 25607874791858598497 (n l 25607874808971552879 l)) 25607876918084990049 (n (n l 25607878094621011826 l) 25607878098983608690 (n l 25608994038811353458 l)))))) 25609000700355375727 (n (n (n (n (n (n l 25609826399228097121 l) 25609841753669265519 (n l 25610110026235668858 l)) 25610111198509494881 (n (n l 25610126527516210287 l) 25610126604775156065 (n l 25611797793730752370 l))) 25611803359923498095 (n (n (n l 25611809875322364274 l) 25611809888291545458 (n l 25611809905571362401 l)) 25611809935501654127 (n (n l 25611810987618623858 l) 25611810996241588594 (n l 25611811000535967090 l)))) 25611811009394598258 (n (n (n (n l 25611811048049699186 l) 25611811052293551215 (n l 25611812134408315250 l)) 25611813203787149170 (n (n l 25611814354906539372 l) 25611815433110970732 (n l 25611817627821634661 l))) 25612649949450625388 (n (n (n l 25612649979514675570 l) 25612663199357301359 (n l 25613497672915640690 l)) 25613504218630026863 (n (n l 25681040706619597170 l) 25681041720232473957 (n l 25681041793129668978 l))))) 25681042853951792239 (n (n (n (n (n l 25681046204295962994 l) 25681051632932054127 (n l 25681051650229625202 l)) 25681052775477765231 (n (n l 25681053896414557281 l) 25681056031096005743 (n l 25681056086780769121 l))) 25681058285736518002 (n (n (n l 25681059316764008818 l) 25681059320823706479 (n l 25681059333841970287 l)) 25681059338003903589 (n (n l 25681059346694627692 l) 25681059363773309298 (n l 25681059393838347621 l)))) 25681060411929551218 (n (n (n (n l 25681060429143764850 l) 25681062671216108655 (n l 25682165446985477473 l)) 25682177515877131375 (n (n l 25682177601525675109 l) 25682178649649146226 (n l 25682179714884856161 l))) 25682179744714027631 (n (n (n l 25682185221015172193 l) 25682185233615709029 (n l 25682185281195045989 l)) 25682185289584370034 (n (n l 25682185293744993381 l) 25682188596758929778 (n l 25683855443316993906 l)))))))
def tPortuguese1101 : T := (n (n (n (n (n (n (n l 25683867499508098159 l) 25683868564761179759 (n l 25683873014095967333 l)) 25684703149602334061 (n (n l 25684714114654562657 l) 25685566244806161263 (n l 25752549605750827361 l))) 25752824457787040114 (n (n (n l 25753383069824737650 l) 25755067444429480306 (n l 25755071928139542386 l)) 25755076287666217330 (n (n l 25755350074700948591 l) 25755350087737567343 (n l 25755350100605494383 l)))) 25755365442127488111 (n (n (n (n l 25755365467864129906 l) 25755365493735317874 (n l 25755370952352624498 l)) 25755632606273168495 (n (n l 25755632619007931493 l) 25755632649224090223 (n l 25755633705903415666 l))) 25755633748819534194 (n (n (n l 25755635887545803122 l) 25755636987072701551 (n l 25755637034401292658 l)) 25755637047252575343 (n (n l 25755637059937657202 l) 25755648067938186351 (n l 25755649081685467506 l))))) 25755649141863703663 (n (n (n (n (n l 25755650241442440303 l) 25755651314982937701 (n l 25755651340988866930 l)) 25755653497061597554 (n (n l 25755653539911591282 l) 25756202148851510629 (n l 25757038864465813874 l))) 25757043335375577458 (n (n (n l 25757043348394304623 l) 25757054330491991137 (n l 25757055442889106529 l)) 25757058715669849199 (n (n l 25757060854899630450 l) 25757328104860513377 (n l 25757882254326129010 l)))) 25757886643866788204 (n (n (n (n l 25757890998711514213 l) 25758445191293722994 (n l 25758447385887727986 l)) 25758449546592280946 (n (n l 25758453961549837413 l) 25758460588684632434 (n l 25758461632511764850 l))) 25758461679538954610 (n (n (n l 25758461705376199535 l) 25758461718378537330 (n l 25824029981853049202 l)) 25824029994789073775 (n (n l 25824042037876973938 l) 25824043115729545071 (n l 25824043124319744609 l)))))) 25824043184683182181 (n (n (n (n (n (n l 25824051959352095841 l) 25825163544082080865 (n l 25825163578207794277 l)) 25825167937817374319 (n (n l 25825173474147525997 l) 25825174581980848498 (n l 25826282838161977967 l))) 25826287292260639855 (n (n (n l 25827125042660795770 l) 25827125085611124591 (n l 25827129440690332769 l)) 25828813965469314671 (n (n l 25828835951658557810 l) 25828835955701281377 (n l 25896087503027926127 l)))) 25896087537320293477 (n (n (n (n l 25896106254621045871 l) 25897226614254564207 (n l 25897227743780104545 l)) 25897231046509748594 (n (n l 25899198094286746479 l) 25900050160114622834 (n l 25900871559775089775 l))) 25900880351237793903 (n (n (n l 25900880355533154657 l) 25900886952670094191 (n l 25900893524019733615 l)) 25901716001684089197 (n (n l 25901720374111199602 l) 25968162740741499233 (n l 25970396914059731314 l))))) 25970399168632742258 (n (n (n (n (n l 25970412350205158241 l) 25972096801784689765 (n l 25972103390415446380 l)) 25972104502643548530 (n (n l 25973786751356986479 l) 26041904795232593007 (n l 26043319857957462386 l))) 26043319883912077682 (n (n (n l 26043583702092575855 l) 26043583762390414959 (n l 26043588143022503013 l)) 26043588168724541298 (n (n l 26043595830946853989 l) 26043595856783766369 (n l 26043601337229926770 l)))) 26043860813248491378 (n (n (n (n l 26043864081752486767 l) 26043864099183752303 (n l 26043865185659347322 l)) 26043865237132571749 (n (n l 26043866263781140844 l) 26043866281044894066 (n l 26043866298140161135 l))) 26043866310807216498 (n (n (n l 26043866323977331052 l) 26043866336577482610 (n l 26043876167824340069 l)) 26043876249360953202 (n (n l 26043878444223525999 l) 26043880566088627311 (n l 26043880591875926386 l)))))))
def tPortuguese110 : T := n tPortuguese1100 25683866425833907311 tPortuguese1101
def tPortuguese1110 : T := (n (n (n (n (n (n (n l 26043880638818050418 l) 26043881674006225260 (n l 26043881716887676015 l)) 26044986721879289455 (n (n l 26045002115043713394 l) 26045005392286671983 (n l 26045285819040232047 l))) 26045549663242776175 (n (n (n l 26112277877327225697 l) 26116199890987935841 (n l 26116204280426882145 l)) 26117900805276462962 (n (n l 26256375473217299553 l) 26256376654048687205 (n l 26256377745104463983 l)))) 26256387584958947698 (n (n (n (n l 26256397536179023730 l) 26257500320622011493 (n l 26257506887794975090 l)) 26257513472047019109 (n (n l 26257514597043171186 l) 26257514648717518945 (n l 26257521237130048111 l))) 26258639427570594415 (n (n (n l 26258639431798124402 l) 26258640496950207853 (n l 26258643851453687162 l)) 26258646046047954285 (n (n l 26328435339142522977 l) 26328444062304334447 (n l 26328445221794837103 l))))) 26328446278558902637 (n (n (n (n (n l 26328446295821610081 l) 26328446321256718706 (n l 26328446347310883186 l)) 26328449645678584178 (n (n l 26328450667745931122 l) 26328450728211346277 (n l 26328451810443031137 l))) 26328451835977229677 (n (n (n l 26328451840406413682 l) 26329564464519540325 (n l 26329569962211109217 l)) 26329571121919779180 (n (n l 26329572238325933421 l) 26329576585168709743 (n l 26329577727629816929 l)))) 26329578831100732781 (n (n (n (n l 26329583190525701743 l) 26330698095585948271 (n l 26330703640422146418 l)) 26332374850565399653 (n (n l 26332384746338088037 l) 26332386992388466785 (n l 26332392477396661349 l))) 26332392489946866785 (n (n (n l 26334081267127837042 l) 26400491795114778988 (n l 26400510538401806945 l)) 26401616646999339887 (n (n l 26401622058791958113 l) 26401622118636282226 (n l 26401638611344257647 l)))))) 26404448915820868709 (n (n (n (n (n (n l 26404451136284746098 l) 26472830846747370607 (n l 26472833041509344626 l)) 26472838543614506607 (n (n l 26472847356668765295 l) 26472848503392727649 (n l 26473118914533291109 l))) 26473132143099999329 (n (n (n l 26473958954234704997 l) 26473958984601138785 (n l 26473959001546450017 l)) 26473976597993055343 (n (n l 26475652266632770145 l) 26476209714849997935 (n l 26476771513803366764 l)))) 26476773751245795186 (n (n (n (n l 26476784729249969253 l) 26476784746681953903 (n l 26477337727914308719 l)) 26477341043630301548 (n (n l 26477353181039786095 l) 26477634613234917746 (n l 26477904027859512687 l))) 26479029901929111922 (n (n (n l 26544606983022867557 l) 26544608121256306799 (n l 26544613622974735725 l)) 26544616861682922081 (n (n l 26544616908759785842 l) 26544619064882721903 (n l 26544619112278352737 l))))) 26544619124828299628 (n (n (n (n (n l 26544621242346989935 l) 26544621259610743905 (n l 26544623441353993825 l)) 26545732934586425714 (n (n l 26545733965496742501 l) 26545733982374621793 (n l 26545739527412146540 l))) 26545742778499952239 (n (n (n l 26545744956351471986 l) 26545744973195862895 (n l 26545745020439523186 l)) 26545749349833532786 (n (n l 26545749362718897263 l) 26545749367282627681 (n l 26545749392851495282 l)))) 26545749405785749615 (n (n (n (n l 26545749418620055137 l) 26545749422848762725 (n l 26545750509743600481 l)) 26545751574861537650 (n (n l 26546863198062933103 l) 26546868644316738145 (n l 26546871998450594415 l))) 26547701043371013217 (n (n (n l 26547723016088282477 l) 26548557511154295905 (n l 26548557528267579762 l)) 26548557579841074277 (n (n l 26548557584203016303 l) 26548559705850143090 (n l 26548559774502512993 l)))))))
def tPortuguese1111 : T := (n (n (n (n (n (n (n l 26549394235107602290 l) 26549394243764974703 (n l 26549394286648123762 l)) 26549394299666851937 (n (n l 26549394303895499887 l) 26549394312484776306 (n l 26549398676137407329 l))) 26549405225997005679 (n (n (n l 26549405251715818607 l) 26549405268946740594 (n l 26549405281763680626 l)) 26549405299011514226 (n (n l 26549405307533291378 l) 26550235395996737906 (n l 26550246395509367154 l)))) 26550246421111075425 (n (n (n (n l 26622300699669656933 l) 26688721037377496161 (n l 26688722171266490738 l)) 26688736430373827169 (n (n l 26688738663755506789 l) 26688739737783396463 (n l 26688739793281773426 l))) 26688739810529079905 (n (n (n l 26688740828788125281 l) 26688740888565871201 (n l 26689845893524185458 l)) 26689846937201959282 (n (n l 26689848096992813426 l) 26689848109929095538 (n l 26689849222408791137 l))))) 26689851382425741682 (n (n (n (n (n l 26689851408195478383 l) 26689851421113278834 (n l 26689855750474588530 l)) 26689857932501808751 (n (n l 26689860191687631983 l) 26689862416179224946 (n l 26689863515708220786 l))) 26689865650524479858 (n (n (n l 26689865654534955378 l) 26689865689079375218 (n l 26689865693256053871 l)) 26689865710369141861 (n (n l 26689866788606403681 l) 26689866801291223410 (n l 26690978394946892655 l)))) 26694365947339502181 (n (n (n (n l 26760789690872455538 l) 26760789703757359201 (n l 26760789716508110706 l)) 26760791859746923621 (n (n l 26760796249221133423 l) 26760802880667479653 (n l 26761910080269874287 l))) 26761915616415147373 (n (n (n l 26761919924552164463 l) 26761924339694727791 (n l 26763041456527864929 l)) 26763041460521496165 (n (n l 26763042543138662753 l) 26763042590064666977 (n l 26763043651256607090 l)))))) 26763043706990651745 (n (n (n (n (n (n l 26764719298336353903 l) 26764730293487296882 (n l 26764730357659562607 l)) 26764732505075773298 (n (n l 26764739089546764658 l) 26766407121550074226 (n l 26766408182339367791 l))) 26766408212621126002 (n (n (n l 26766423541359931250 l) 26766423571273310578 (n l 26766423597043771762 l)) 26766425744527815777 (n (n l 26766425787627565921 l) 26766426904101549167 (n l 26832841723078863969 l)))) 26832848324394117485 (n (n (n (n l 26832849445212550245 l) 26832856102344287597 (n l 26832860414810355311 l)) 26833973137523043941 (n (n l 26835101300860482159 l) 26836797830122271329 (n l 26837620204623390831 l))) 26837620208985334130 (n (n (n l 26837620213549395826 l) 26837620221870039410 (n l 26837620277704749679 l)) 26837620281932279666 (n (n l 26837624662933135730 l) 26837629005145009263 (n l 26837629009373590629 l))))) 26837629043900639585 (n (n (n (n (n l 26837629052305630309 l) 26837629078361760114 (n l 26837629082538500460 l)) 26837635645047141473 (n (n l 26838483386010792801 l) 26838485576394039660 (n l 26908560712262643045 l))) 26909693235008334177 (n (n (n l 26909981281336256882 l) 26976956911155377007 (n l 26976962442837451877 l)) 26976964689055409517 (n (n l 26976967991952503407 l) 26976970113934975346 (n l 26976970182554382945 l)))) 26978085018725540210 (n (n (n (n l 26978090516014722930 l) 26978090520243757420 (n l 26978094922584059762 l)) 26978094931409528929 (n (n l 26978094957011429487 l) 26978094987076334693 (n l 26978097164842525036 l))) 26979203286139432818 (n (n (n l 26979205485163604321 l) 26979214208526543471 (n l 26980903075415486316 l)) 26980903139706103149 (n (n l 26980903144202924911 l) 26982602989396913249 (n l 27269136780267841889 l)))))))
def tPortuguese111 : T := n tPortuguese1110 26548561978005091183 tPortuguese1111
def tPortuguese11 : T := n tPortuguese110 26043880621705817970 tPortuguese111
def tPortuguese1 : T := n tPortuguese10 25468546821793603948 tPortuguese11
def tPortuguese : T := n tPortuguese0 100321018838872933 tPortuguese1

def tSpanish0000 : T := (n (n (n (n (n (n (n (n l 23163745 l) 23164517 l) 23228257 (n l 23290220 l)) 23355762 (n (n l 23359342 l) 23359347 (n l 23421807 l))) 23423589 (n (n (n l 23486840 l) 23487855 (n l 23488878 l)) 23553390 (n (n l 23555948 l) 23617914 (n l 23687777 l)))) 23885178 (n (n (n (n l 23945586 l) 23946611 (n l 23947628 l)) 24077153 (n (n l 24078959 l) 24079457 (n l 24081007 l))) 24081263 (n (n (n l 24142190 l) 24143226 (n l 24144229 l)) 24274276 (n (n l 24274291 l) 24274297 (n l 24276846 l))))) 24339812 (n (n (n (n (n l 24339826 l) 24342380 (n l 24343922 l)) 24405370 (n (n l 24407923 l) 24473199 (n l 24475233 l))) 24536434 (n (n (n l 24537452 l) 24539002 (n l 5928875119 l)) 5929137505 (n (n l 5929267813 l) 5929460321 (n l 5929461601 l)))) 5929463137 (n (n (n (n l 5929464943 l) 5929529202 (n l 5929724271 l)) 5929853298 (n (n l 5929853807 l) 5929857121 (n l 5929858149 l))) 5929919855 (n (n (n l 5929922159 l) 5929984370 (n l 5929985391 l)) 5930051429 (n (n l 5930052705 l) 5930115436 (n l 5930313074 l)))))) 5930377586 (n (n (n (n (n (n l 5930382700 l) 5945516641 (n l 5945783151 l)) 5946041710 (n (n l 5946434159 l) 5946434401 (n l 5946434657 l))) 5946436705 (n (n (n l 5946437231 l) 5946438757 (n l 5946828153 l)) 5962294642 (n (n l 5962295905 l) 5962296673 (n l 5962297203 l)))) 5962297953 (n (n (n (n l 5962298209 l) 5962300015 (n l 5962560111 l)) 5962818926 (n (n l 5962820961 l) 5962821221 (n l 5962822753 l))) 5963014510 (n (n (n l 5963211631 l) 5963211887 (n l 5963213423 l)) 5963213921 (n (n l 5963214945 l) 5963412858 (n l 5963604591 l))))) 5963607649 (n (n (n (n (n l 5979073889 l) 5979333743 (n l 5979596154 l)) 5979600481 (n (n l 5979988837 l) 5980382305 (n l 5980385903 l))) 5996044644 (n (n (n l 5997032549 l) 6012627553 (n l 6012628321 l)) 6012629861 (n (n l 6013149554 l) 6013150572 (n l 6013151855 l)))) 6013152353 (n (n (n (n l 6013349746 l) 6013543265 (n l 6013547361 l)) 6013547631 (n (n l 6013937505 l) 6029404783 (n l 6029405281 l))) 6029407343 (n (n (n l 6029931119 l) 6030323041 (n l 6030324833 l)) 6030518643 (n (n l 6046180449 l) 6046706287 (n l 6047099489 l)))))))
def tSpanish0001 : T := (n (n (n (n (n (n (n l 6047103343 l) 6047492466 (n l 6047493487 l)) 6064073075 (n (n l 6064139361 l) 6079997541 (n l 6080657761 l))) 6081045882 (n (n (n l 6081046383 l) 6097038447 (n l 6113289327 l)) 6113291873 (n (n l 6113293409 l) 6113294959 (n l 6113550700 l)))) 6113551730 (n (n (n (n l 6113556069 l) 6113814369 (n l 6113815905 l)) 6113816175 (n (n l 6113817455 l) 6114206319 (n l 6114206575 l))) 6114209135 (n (n (n l 6114210917 l) 6114601583 (n l 6114602593 l)) 6114603105 (n (n l 6114604143 l) 6130067311 (n l 6130068591 l))))) 6130069103 (n (n (n (n (n l 6130069601 l) 6130070369 (n l 6130332769 l)) 6130591084 (n (n l 6130591585 l) 6130593135 (n l 6130593377 l))) 6130594657 (n (n (n l 6130594927 l) 6130984033 (n l 6130985071 l)) 6130989679 (n (n l 6131379297 l) 6131380847 (n l 6146848357 l)))) 6147109999 (n (n (n (n l 6147368047 l) 6147765345 (n l 6148153957 l)) 6148154209 (n (n l 6148154479 l) 6148154746 (n l 6148156527 l))) 6163690081 (n (n (n l 6163753071 l) 6163753327 (n l 6163755621 l)) 6163818863 (n (n l 6164017775 l) 6164343905 (n l 6164344175 l)))))) 6164344690 (n (n (n (n (n (n l 6164472929 l) 6164478561 (n l 6164734316 l)) 6164734817 (n (n l 6164869743 l) 6180398959 (n l 6180401775 l))) 6180402031 (n (n (n l 6180402273 l) 6180402799 (n l 6180662383 l)) 6180662881 (n (n l 6180663154 l) 6180663905 (n l 6180664161 l)))) 6180925039 (n (n (n (n l 6180925537 l) 6180926319 (n l 6181118318 l)) 6181315439 (n (n l 6181317999 l) 6181321327 (n l 6181515105 l))) 6181711201 (n (n (n l 6181711969 l) 6213952111 (n l 6213954913 l)) 6213956719 (n (n l 6213957999 l) 6213958241 (n l 6214216289 l))))) 6214217071 (n (n (n (n (n l 6214476655 l) 6214477409 (n l 6214480737 l)) 6214481007 (n (n l 6214482543 l) 6214869861 (n l 6214870386 l))) 6214871663 (n (n (n l 6214873185 l) 6214873953 (n l 6215263343 l)) 6215265391 (n (n l 6215267425 l) 6230731873 (n l 6230732399 l)))) 6230732911 (n (n (n (n l 6230991727 l) 6230993267 (n l 6230996065 l)) 6230997103 (n (n l 6231650401 l) 6247506799 (n l 6247508591 l))) 6247510113 (n (n (n l 6247512673 l) 6247771233 (n l 6247771489 l)) 6248033647 (n (n l 6248034415 l) 6248034913 (n l 6248036961 l)))))))
def tSpanish000 : T := n tSpanish0000 6047101537 tSpanish0001
def tSpanish0010 : T := (n (n (n (n (n (n (n l 6248425313 l) 6248427119 (n l 6248427621 l)) 6248428143 (n (n l 6248621422 l) 6248621427 (n l 6248817263 l))) 6265137522 (n (n (n l 6265397861 l) 6265400929 (n l 6265463154 l)) 6281061217 (n (n l 6281062255 l) 6281063525 (n l 6281065057 l)))) 6281065327 (n (n (n (n l 6281325665 l) 6281326177 (n l 6281585761 l)) 6281588335 (n (n l 6281590383 l) 6281983087 (n l 6331397221 l))) 6331657569 (n (n (n l 6331659119 l) 6332310639 (n l 6332311393 l)) 6349090401 (n (n l 6349483375 l) 1517774269025 (n l 1517774925423 l))))) 1517775120754 (n (n (n (n (n l 1517775319919 l) 1517791703919 (n l 1517859006831 l)) 1517859202159 (n (n l 1517859203681 l) 1517875586927 (n l 1517908487791 l))) 1517941974369 (n (n (n l 1517942043745 l) 1517943021938 (n l 1517943415154 l)) 1517958819439 (n (n l 1517959079791 l) 1517975464047 (n l 1517975465057 l)))) 1517975527794 (n (n (n (n l 1517976641900 l) 1517982352239 (n l 1518009803887 l)) 1518009809263 (n (n l 1518010200687 l) 1518042440815 (n l 1518042637682 l))) 1518042641775 (n (n (n l 1518042965363 l) 1518043360609 (n l 1518043557754 l)) 1518059218031 (n (n l 1518059744367 l) 1518060466799 (n l 1518075996783 l)))))) 1518077112186 (n (n (n (n (n (n l 1518092968314 l) 1518092970351 (n l 1518094020466 l)) 1518109553263 (n (n l 1518109814369 l) 1518110077807 (n l 1518161192033 l))) 1518161194607 (n (n (n l 1518177580133 l) 1522052263794 (n l 1522052327525 l)) 1522052721765 (n (n l 1522052784498 l) 1522052916325 (n l 1522053047151 l)))) 1522053047393 (n (n (n (n l 1522053309025 l) 1522053309295 (n l 1522053313135 l)) 1522053441906 (n (n l 1522053833074 l) 1522120027247 (n l 1522120483186 l))) 1522186545263 (n (n (n l 1522187265903 l) 1522238059361 (n l 1522287603297 l)) 1522287801185 (n (n l 1522287862369 l) 1522288190565 (n l 1522288714092 l))))) 1522337412719 (n (n (n (n (n l 1522337413743 l) 1522337674853 (n l 1522337936225 l)) 1522338325345 (n (n l 1522338327905 l) 1522338329701 (n l 1522338720353 l))) 1522338722927 (n (n (n l 1522387871087 l) 1522387872869 (n l 1522388004463 l)) 1522388464751 (n (n l 1522388855905 l) 1522388857455 (n l 1526347231841 l)))) 1526347293039 (n (n (n (n l 1526347883631 l) 1526347885669 (n l 1526347885921 l)) 1526347886450 (n (n l 1526347888239 l) 1526347952239 (n l 1526348018799 l))) 1526348079713 (n (n (n l 1526348145018 l) 1526348277601 (n l 1526348279397 l)) 1526348280431 (n (n l 1526348280929 l) 1526348342127 (n l 1526348345441 l)))))))
def tSpanish0011 : T := (n (n (n (n (n (n (n l 1526348477281 l) 1526414468466 (n l 1526414471791 l)) 1526414992481 (n (n l 1526415385441 l) 1526415385711 (n l 1526415520367 l))) 1526464606305 (n (n (n l 1526465127279 l) 1526465132143 (n l 1526465526369 l)) 1526481643375 (n (n l 1526481644655 l) 1526481711713 (n l 1526482232175 l)))) 1526482236513 (n (n (n (n l 1526482494319 l) 1526482562661 (n l 1526531715695 l)) 1526531715941 (n (n l 1526531716709 l) 1526532238689 (n l 1526582112869 l))) 1526582375013 (n (n (n l 1526582437234 l) 1526582766959 (n l 1526582830450 l)) 1526582895717 (n (n l 1526582896481 l) 1526583028065 (n l 1526583223666 l))))) 1526583227489 (n (n (n (n (n l 1526632636786 l) 1526632639841 (n l 1526633295215 l)) 1526633686127 (n (n l 1526682973793 l) 1526683431009 (n l 1526683432047 l))) 1526683628641 (n (n (n l 1526683820402 l) 1526683825007 (n l 1526683825761 l)) 1526683953523 (n (n l 1530642987617 l) 1530643244143 (n l 1530709304690 l)))) 1530709371250 (n (n (n (n l 1530709827954 l) 1530710094703 (n l 1530710418799 l)) 1530710549601 (n (n l 1530776350305 l) 1530776613985 (n l 1530776743535 l))) 1530777527151 (n (n (n l 1530783367521 l) 1530877078629 (n l 1530877734770 l)) 1530877862258 (n (n l 1530878129007 l) 1530878191987 (n l 1530928260961 l)))))) 1530977806433 (n (n (n (n (n (n l 1530977938543 l) 1530978394981 (n l 1530978727269 l)) 1530978787698 (n (n l 1530984694127 l) 1534954989935 (n l 1534971109746 l))) 1535155203695 (n (n (n l 1535155466863 l) 1535222839919 (n l 1535240331634 l)) 1535255867489 (n (n l 1535256717665 l) 1539232329313 (n l 1539232785505 l)))) 1539232787567 (n (n (n (n l 1539232789359 l) 1539233181548 (n l 1539233182561 l)) 1539233377889 (n (n l 1539233443698 l) 1539299305569 (n l 1539299895674 l))) 1539300288865 (n (n (n l 1539300290426 l) 1539366351457 (n l 1539366414433 l)) 1539366479215 (n (n l 1539366548065 l) 1539366871410 (n l 1539367134049 l))))) 1539367398753 (n (n (n (n (n l 1539416613743 l) 1539417535585 (n l 1539417926002 l)) 1539417926255 (n (n l 1539467012449 l) 1539467667823 (n l 1539467797615 l))) 1539468062049 (n (n (n l 1539468063343 l) 1539517281125 (n l 1539517541999 l)) 1539517543265 (n (n l 1539517805679 l) 1539518592097 (n l 1539567871855 l)))) 1539568394610 (n (n (n (n l 1539568460897 l) 1539568724321 (n l 1539568789868 l)) 1543527358835 (n (n l 1543527560289 l) 1543527754863 (n l 1543527817825 l))) 1543527883122 (n (n (n l 1543527884641 l) 1543527887727 (n l 1543528151649 l)) 1543594928498 (n (n l 1543594994031 l) 1543594996837 (n l 1543595324527 l)))))))
def tSpanish001 : T := n tSpanish0010 1526348411493 tSpanish0011
def tSpanish00 : T := n tSpanish000 6248424559 tSpanish001
def tSpanish0100 : T := (n (n (n (n (n (n (n l 1543712498287 l) 1543762634351 (n l 1543762636901 l)) 1543763027055 (n (n l 1543763030625 l) 1543763158383 (n l 1543763550578 l))) 1543812244577 (n (n (n l 1543812247151 l) 1543812248417 (n l 1543812249189 l)) 1543812771941 (n (n l 1543812772975 l) 1543813557615 (n l 1543813558383 l)))) 1543862579311 (n (n (n (n l 1543863103342 l) 1543863104367 (n l 1547822065010 l)) 1547822130546 (n (n l 1547822131297 l) 1547889177185 (n l 1547889240175 l))) 1547889830255 (n (n (n l 1547890223474 l) 1547956481135 (n l 1547957005935 l)) 1548057272690 (n (n l 1548057732975 l) 1548057735026 (n l 1548057735777 l))))) 1548057996911 (n (n (n (n (n l 1548157805423 l) 1548157809519 (n l 1548157810287 l)) 1548158067809 (n (n l 1548158661743 l) 1552151441007 (n l 1552167559532 l))) 1552218939756 (n (n (n l 1552319275378 l) 1556413051489 (n l 1556413246561 l)) 1556648191342 (n (n l 1556748329839 l) 1556748331375 (n l 1556748591474 l)))) 1556748661871 (n (n (n (n l 1560941784161 l) 1565001935215 (n l 1565002000751 l)) 1565002003041 (n (n l 1565002392431 l) 1565002655090 (n l 1565002725985 l))) 1565002983279 (n (n (n l 1565002987105 l) 1565003114866 (n l 1565003243890 l)) 1565069109349 (n (n l 1565069833327 l) 1565070221676 (n l 1565070226017 l)))))) 1565136155247 (n (n (n (n (n (n l 1565136220018 l) 1565136937829 (n l 1565136938095 l)) 1565137269857 (n (n l 1565137332591 l) 1565137334895 (n l 1565186418529 l))) 1565186420065 (n (n (n l 1565186422373 l) 1565237146223 (n l 1565237602913 l)) 1565337544801 (n (n l 1565337545074 l) 1565337805170 (n l 1565338264947 l)))) 1569296967791 (n (n (n (n l 1569297035877 l) 1569297164641 (n l 1569297230177 l)) 1569297558625 (n (n l 1569297621615 l) 1569297626484 (n l 1569297687407 l))) 1569297687663 (n (n (n l 1569297688417 l) 1569297691503 (n l 1569297691745 l)) 1569297949551 (n (n l 1569297950049 l) 1569297955439 (n l 1569298080114 l))))) 1569298082170 (n (n (n (n (n l 1569298411378 l) 1569364076641 (n l 1569364142447 l)) 1569364537202 (n (n l 1569364799346 l) 1569364800613 (n l 1569365190002 l))) 1569365193327 (n (n (n l 1569431315567 l) 1569431973989 (n l 1569432166770 l)) 1569432234348 (n (n l 1569432235375 l) 1569432297828 (n l 1569532305778 l)))) 1569532437605 (n (n (n (n l 1569532437874 l) 1569532504417 (n l 1569532570209 l)) 1569532572783 (n (n l 1569532832114 l) 1569532834415 (n l 1569532834657 l))) 1569532896097 (n (n (n l 1569533093234 l) 1569632512111 (n l 1569632575858 l)) 1569632644193 (n (n l 1569632776805 l) 1569632970098 (n l 1569633104993 l)))))))
def tSpanish0101 : T := (n (n (n (n (n (n (n l 1569633493356 l) 1569633559919 (n l 1569633560431 l)) 1569633561711 (n (n l 1573591998834 l) 1573592330341 (n l 1573592918394 l))) 1573592981868 (n (n (n l 1573593047404 l) 1573593178476 (n l 1573659044207 l)) 1573659304306 (n (n l 1573659308655 l) 1573660287346 (n l 1573726152815 l)))) 1573726286959 (n (n (n (n l 1573727397228 l) 1573826816101 (n l 1573827799393 l)) 1573827800417 (n (n l 1573827802213 l) 1573828061551 (n l 1573927613025 l))) 1573927614053 (n (n (n l 1577887951219 l) 1577903813487 (n l 1577904925039 l)) 1577920328559 (n (n l 1577937625458 l) 1577955062885 (n l 1578028007794 l))))) 1578071848559 (n (n (n (n (n l 1578138428271 l) 1578139672946 (n l 1578172179822 l)) 1578172246625 (n (n l 1578173294433 l) 1578190008929 (n l 1578239355489 l))) 1578307120751 (n (n (n l 1582181872751 l) 1582181937765 (n l 1582182458223 l)) 1582182460769 (n (n l 1582182588780 l) 1582182720876 (n l 1582182850930 l)))) 1582182851940 (n (n (n (n l 1582182852978 l) 1582182855781 (n l 1582182916466 l)) 1582182917487 (n (n l 1582182921313 l) 1582182984047 (n l 1582183052129 l))) 1582183052385 (n (n (n l 1582248978543 l) 1582249042284 (n l 1582249044338 l)) 1582249238898 (n (n l 1582249373285 l) 1582249566578 (n l 1582249567585 l)))))) 1582249962593 (n (n (n (n (n (n l 1582249964143 l) 1582250025825 (n l 1582316085618 l)) 1582316223073 (n (n l 1582316675442 l) 1582316812897 (n l 1582316874351 l))) 1582317134194 (n (n (n l 1582317139041 l) 1582317593441 (n l 1582366286689 l)) 1582366291041 (n (n l 1582366292321 l) 1582366292577 (n l 1582366551663 l)))) 1582367206767 (n (n (n (n l 1582367599969 l) 1582416687717 (n l 1582416815474 l)) 1582416816495 (n (n l 1582416883041 l) 1582416884833 (n l 1582417339758 l))) 1582417341551 (n (n (n l 1582417344111 l) 1582417408097 (n l 1582417470834 l)) 1582417802341 (n (n l 1582417867375 l) 1582466950255 (n l 1582467216239 l))))) 1582467476847 (n (n (n (n (n l 1582467869797 l) 1582517481330 (n l 1582518003553 l)) 1582518004082 (n (n l 1582518005871 l) 1582518006639 (n l 1582518137967 l))) 1586812512865 (n (n (n l 1586812515183 l) 1590771738977 (n l 1590772461665 l)) 1590772524911 (n (n l 1590772654458 l) 1590772659311 (n l 1590772852591 l)))) 1590772854881 (n (n (n (n l 1590838916207 l) 1590839175538 (n l 1590839176289 l)) 1590839307887 (n (n l 1590839504746 l) 1590839566706 (n l 1590839637089 l))) 1590839964783 (n (n (n l 1590840418674 l) 1590906152815 (n l 1590906285938 l)) 1590907137391 (n (n l 1590912909679 l) 1591006620773 (n l 1591006749042 l)))))))
def tSpanish010 : T := n tSpanish0100 1569633231983 tSpanish0101
def tSpanish0110 : T := (n (n (n (n (n (n (n l 1591007404911 l) 1591007405153 (n l 1591007732577 l)) 1591007797618 (n (n l 1591107284850 l) 1591107478625 (n l 1591107610994 l))) 1591107740783 (n (n (n l 1591107743329 l) 1591108002415 (n l 1591108005746 l)) 1595066705266 (n (n l 1595066706287 l) 1595066707045 (n l 1595066769778 l)))) 1595067031930 (n (n (n (n l 1595067360367 l) 1595067361650 (n l 1595067364193 l)) 1595067364463 (n (n l 1595067364708 l) 1595067425377 (n l 1595067495535 l))) 1595067692389 (n (n (n l 1595067952737 l) 1595133883489 (n l 1595134471279 l)) 1595134473825 (n (n l 1595134600289 l) 1595134732641 (n l 1595134863717 l))))) 1595135259759 (n (n (n (n (n l 1595201057377 l) 1595201123429 (n l 1595201252463 l)) 1595201252975 (n (n l 1595201580129 l) 1595201644911 (n l 1595202103663 l))) 1595301589605 (n (n (n l 1595301652847 l) 1595301718383 (n l 1595302634607 l)) 1595402188389 (n (n l 1595402250610 l) 1595402383218 (n l 1595402447983 l)))) 1595402969458 (n (n (n (n l 1595403297647 l) 1595403367535 (n l 1595403430252 l)) 1599361674337 (n (n l 1599361741935 l) 1599362326898 (n l 1599362327407 l))) 1599362329697 (n (n (n l 1599362459503 l) 1599362591073 (n l 1599362720869 l)) 1599362721121 (n (n l 1599362723700 l) 1599362724463 (n l 1599362724961 l)))))) 1599362921071 (n (n (n (n (n (n l 1599428847727 l) 1599428848737 (n l 1599429305714 l)) 1599429504882 (n (n l 1599429566842 l) 1599429567858 (n l 1599429568883 l))) 1599429571439 (n (n (n l 1599429829487 l) 1599429896563 (n l 1599430227055 l)) 1599495891311 (n (n l 1599496090479 l) 1599496221285 (n l 1599496545381 l)))) 1599496680545 (n (n (n (n l 1599502844271 l) 1599596618098 (n l 1599597208687 l)) 1599597273458 (n (n l 1599597343855 l) 1599597470066 (n l 1599597540709 l))) 1599597605477 (n (n (n l 1599597605743 l) 1599597667183 (n l 1599597667698 l)) 1599646819698 (n (n l 1599646820207 l) 1599646820965 (n l 1599646821743 l))))) 1599646823535 (n (n (n (n (n l 1599647343221 l) 1599647344495 (n l 1599647346785 l)) 1599647740001 (n (n l 1599647741029 l) 1599647742575 (n l 1599648129903 l))) 1599648130657 (n (n (n l 1599697936993 l) 1599697940338 (n l 1599698267759 l)) 1599698399090 (n (n l 1603875922290 l) 1603881698145 (n l 1607951933810 l)))) 1607952068193 (n (n (n (n l 1607952264293 l) 1607952265074 (n l 1608019240314 l)) 1608019373946 (n (n l 1608019502177 l) 1608019503474 (n l 1608019506273 l))) 1608019506547 (n (n (n l 1608019763823 l) 1608019764325 (n l 1608019765857 l)) 1608019768175 (n (n l 1608085760613 l) 1608085891439 (n l 1608086022767 l)))))))
def tSpanish0111 : T := (n (n (n (n (n (n (n l 1608086482017 l) 1608086872428 (n l 1608086873967 l)) 1608086941554 (n (n l 1608086942817 l) 1608087069807 (n l 1608087134586 l))) 1608087136626 (n (n (n l 1608092778849 l) 1608187535738 (n l 1608187666802 l)) 1608287349871 (n (n l 1620836574578 l) 1620903949665 (n l 1620904668783 l)))) 1621071721842 (n (n (n (n l 1625132264033 l) 1625132530273 (n l 1625367409263 l)) 1625468068975 (n (n l 388550381171823 l) 388550430390895 (n l 388550480981103 l))) 388554440204658 (n (n (n l 388554473960303 l) 388554507777125 (n l 388554507970401 l)) 388554508104815 (n (n l 388554658532481 l) 388554675414386 (n l 388554759435887 l))))) 388554760022394 (n (n (n (n (n l 388554760216946 l) 388554775882098 (n l 388554776863090 l)) 388558869460079 (n (n l 388558971104879 l) 388559070654049 (n l 388559071376495 l))) 388567460110706 (n (n (n l 388571755471218 l) 388571856073839 (n l 388571856134514 l)) 388576150975087 (n (n l 388580512653682 l) 388584841639013 (n l 388593095961953 l)))) 388593162351205 (n (n (n (n l 388593162543474 l) 388593163072609 (n l 388593229063279 l)) 388593230440815 (n (n l 388593296435809 l) 388593413880417 (n l 388593414141551 l))) 388593414926945 (n (n (n l 388593431178863 l) 388597389880421 (n l 388597390668901 l)) 388597390927727 (n (n l 388597390991730 l) 388597641474671 (n l 388597642193263 l)))))) 388601752676705 (n (n (n (n (n (n l 388601819720815 l) 388601826017651 (n l 388601920905586 l)) 388602003811937 (n (n l 388602004466287 l) 388602021044594 (n l 388610275107186 l))) 388610510713957 (n (n (n l 388619151173473 l) 388623160341615 (n l 388623227907954 l)) 388623479698543 (n (n l 388623495948658 l) 388623496017007 (n l 388627455636837 l)))) 388627522548847 (n (n (n (n l 388627639399521 l) 388627739796850 (n l 388627797148014 l)) 388636045370213 (n (n l 388653560263269 l) 389005948971372 (n l 389005949691233 l))) 389645586957167 (n (n (n l 389645647899002 l) 389645665137249 (n l 389645681914977 l)) 389645704397164 (n (n l 389662558768257 l) 389662559003745 (n l 389662844938593 l))))) 389692607325039 (n (n (n (n (n l 389692842407269 l) 389705508679265 (n l 389705525456481 l)) 389705541969761 (n (n l 389705676190319 l) 389705709674852 (n l 389705710007407 l))) 389705777701234 (n (n (n l 389705794418021 l) 389718443518049 (n l 389718511217775 l)) 389718511346543 (n (n l 389718612009829 l) 389718713000815 (n l 389731396645477 l)))) 389731563299186 (n (n (n (n l 389731579945825 l) 389733058439279 (n l 390744890505825 l)) 390744890764897 (n (n l 390744924057185 l) 390744957635713 (n l 390745058142575 l))) 390745074854255 (n (n (n l 390745075314287 l) 390745091762540 (n l 390745091828833 l)) 390745092088673 (n (n l 390745098584929 l) 390745126040677 (n l 390745126363506 l)))))))
def tSpanish011 : T := n tSpanish0110 1608086155122 tSpanish0111
def tSpanish01 : T := n tSpanish010 1591006750063 tSpanish011
def tSpanish0 : T := n tSpanish00 1543662362994 tSpanish01
def tSpanish1000 : T := (n (n (n (n (n (n (n l 390745175716463 l) 390745176698738 (n l 390745209201004 l)) 390762238800751 (n (n l 390762271963745 l) 390762272682607 (n l 390762338810465 l))) 390762339656050 (n (n (n l 390774938362220 l) 390774939348065 (n l 390775073633381 l)) 390775174165861 (n (n l 390775274758514 l) 390779301426287 (n l 390779568939364 l)))) 390792118890354 (n (n (n (n l 390805037084257 l) 390805120709733 (n l 390805187684449 l)) 390805187944818 (n (n l 390805188079201 l) 390805188272498 (n l 390805204853857 l))) 390805205316193 (n (n (n l 390805221370479 l) 390805222351218 (n l 390805288347759 l)) 390805289135713 (n (n l 390805289330034 l) 390805305782131 (n l 390817955145074 l))))) 390818022909294 (n (n (n (n (n l 390818023109729 l) 390818023303539 (n l 390818029142369 l)) 390830773006959 (n (n l 390830773924975 l) 390830774055535 (n l 390830790699378 l))) 390830840638575 (n (n (n l 390830840771695 l) 390830841029729 (n l 390830841099361 l)) 390830907220338 (n (n l 390830974202469 l) 390830991176801 (n l 391861750035567 l)))) 391861767205473 (n (n (n (n l 391861784306028 l) 391878744894575 (n l 391878745942383 l)) 391878762916463 (n (n l 391878779625842 l) 391878812791909 (n l 391878929640801 l))) 391878930688370 (n (n (n l 391878963196527 l) 391879097675375 (n l 391904799843439 l)) 391904800631154 (n (n l 391930569914977 l) 392956917084018 (n l 392957117292914 l)))))) 392965438796911 (n (n (n (n (n (n l 392965505900922 l) 392991208860018 (n l 392991209841010 l)) 392991276561253 (n (n l 392991277082994 l) 392991376632175 (n l 392991477098866 l))) 392995454411887 (n (n (n l 392995571788146 l) 392995687986277 (n l 392995688703343 l)) 392999815177327 (n (n l 392999865904481 l) 392999915840357 (n l 392999967288677 l)))) 393000016766063 (n (n (n (n l 393000033286511 l) 393000050324079 (n l 393000051171698 l)) 393000083616613 (n (n l 393012952264815 l) 393021239684193 (n l 393021239946849 l))) 393021240992879 (n (n (n l 393021290279521 l) 393021457785953 (n l 393021458049647 l)) 393021458707297 (n (n l 393021459098977 l) 393021525421167 (n l 393021526206049 l))))) 393025569320559 (n (n (n (n (n l 393034091227506 l) 393034158994543 (n l 393034226491762 l)) 393042681099375 (n (n l 393042681750894 l) 393042714784623 (n l 393042715833185 l))) 393042748929135 (n (n (n l 393042815576434 l) 393042815904111 (n l 394043443146610 l)) 394043594137970 (n (n l 394043610592111 l) 394043727636321 (n l 394060874805106 l)))) 394077768150117 (n (n (n (n l 394077768940129 l) 394077835260517 (n l 394077836375137 l)) 394077870060129 (n (n l 394077952898149 l) 394077953155436 (n l 394077953880687 l))) 394077986580850 (n (n (n l 394077986714735 l) 394090654299233 (n l 394090720225377 l)) 394103638553697 (n (n l 394103824736626 l) 394116423641697 (n l 394116424098917 l)))))))
def tSpanish1001 : T := (n (n (n (n (n (n (n l 394129375655013 l) 394129375918689 (n l 394129627771503 l)) 395142953790561 (n (n l 395143138207855 l) 395143205186149 (n l 395143223206258 l))) 395160301431919 (n (n (n l 395160385840494 l) 395190400608609 (n l 395203234984815 l)) 395203335253089 (n (n l 395215935662451 l) 395216068899937 (n l 395216069356655 l)))) 395216170479474 (n (n (n (n l 395216270226287 l) 395216276980065 (n l 395228820173925 l)) 395228887544417 (n (n l 395228960555361 l) 395229121310319 (n l 395229122552178 l))) 396242449097074 (n (n (n l 396242616869234 l) 396242632926049 (n l 396242717339233 l)) 396259796018287 (n (n l 396259812864609 l) 396259898059122 (n l 396276859564655 l))))) 396302595220335 (n (n (n (n (n l 396302762537573 l) 396302864378220 (n l 396328398776161 l)) 396328399172705 (n (n l 396328532274799 l) 396328549247346 (n l 397354963266913 l))) 397367898918017 (n (n (n l 397389255369068 l) 397393483228526 (n l 397393489854830 l)) 397393618297202 (n (n l 397397846029413 l) 397397862212972 (n l 397397912152431 l)))) 397397980442213 (n (n (n (n l 397397995910255 l) 397398097881458 (n l 397419438109797 l)) 398441740067429 (n (n l 398476032963685 l) 398501870527073 (n l 398527422424929 l))) 398527422686579 (n (n (n l 398527488551279 l) 398527572700257 (n l 398527573549426 l)) 398527774024050 (n (n l 400640580087393 l) 400640696346721 (n l 400640814769516 l)))))) 400657692782450 (n (n (n (n (n (n l 400657808977519 l) 400657876481377 (n l 400657883104097 l)) 400657899880814 (n (n l 400674888704370 l) 400674905815663 (n l 400674938778223 l))) 400675040160111 (n (n (n l 400675156882017 l) 400687723607151 (n l 400687790252402 l)) 400687790711154 (n (n l 400687791235442 l) 400687958745458 (n l 400687959008626 l)))) 400688059672929 (n (n (n (n l 400700642521697 l) 400726680695407 (n l 401740023559265 l)) 401740040335969 (n (n l 401740041384559 l) 401740130976122 (n l 401740174483812 l))) 401740174554209 (n (n (n l 401740191091841 l) 401740208431474 (n l 401740275280236 l)) 401740275344750 (n (n l 401740275475567 l) 401740276196723 (n l 401740292257391 l))))) 401740309621114 (n (n (n (n (n l 401757354421857 l) 401757389048961 (n l 401757589171297 l)) 401774567846511 (n (n l 401774568895599 l) 401800169876591 (n l 401800304356975 l))) 401800337646689 (n (n (n l 401800344404847 l) 401800404493409 (n l 401800404690290 l)) 401800404758127 (n (n l 401800405737836 l) 401800438576751 (n l 401825956260965 l)))) 401825957311589 (n (n (n (n l 401826073900129 l) 402839787692402 (n l 402839820662383 l)) 402856923136366 (n (n l 402856967825775 l) 402857018028655 (n l 402857033822817 l))) 402873928281185 (n (n (n l 402874086228847 l) 402899983234159 (n l 402899983494241 l)) 402925720594785 (n (n l 403943443361903 l) 403943459222639 (n l 403943593439855 l)))))))
def tSpanish100 : T := n tSpanish1000 394116564025711 tSpanish1001
def tSpanish1010 : T := (n (n (n (n (n (n (n l 403947939198063 l) 403947939455346 (n l 403952033293665 l)) 403960555795297 (n (n l 403960556057697 l) 403960622180719 (n l 403975169991791 l))) 403986324743265 (n (n (n l 403986341524591 l) 403986610480239 (n l 404003572572530 l)) 404003673236850 (n (n l 404012027637618 l) 404012162049390 (n l 404012162378849 l)))) 404016357274223 (n (n (n (n l 404016391155311 l) 404042160174181 (n l 405038592453729 l)) 405038665859443 (n (n l 405038709437537 l) 405038710091105 (n l 405038710153586 l))) 405038776306817 (n (n (n l 405038810887525 l) 405038844504417 (n l 405038927278959 l)) 405055738045551 (n (n l 405055738311265 l) 405055890350945 (n l 405055923773810 l))))) 405055946391918 (n (n (n (n (n l 405055956676207 l) 405055989835873 (n l 405055989900658 l)) 405055989971553 (n (n l 405055990032748 l) 405055990227823 (n l 405072951669345 l))) 405072952585825 (n (n (n l 405073035357537 l) 405073069831279 (n l 405073103712114 l)) 405073109484385 (n (n l 405073169577057 l) 405085836899439 (n l 405086105919852 l)))) 405098855490657 (n (n (n (n l 405098855754863 l) 405098940621164 (n l 405098956153953 l)) 405098956416370 (n (n l 405111606308730 l) 405111606962543 (n l 405111607030625 l))) 405111607552367 (n (n (n l 405111674659186 l) 405111774011762 (n l 405111774214753 l)) 405111774803055 (n (n l 405111774931311 l) 405111874871905 (n l 405124491144303 l)))))) 405124492194913 (n (n (n (n (n (n l 405124492260463 l) 405124649091951 (n l 405124676152417 l)) 405124709469313 (n (n l 406224002900338 l) 406224003490162 (n l 406224003818866 l))) 406224070079599 (n (n (n l 406224070665061 l) 406224071057778 (n l 407237689115002 l)) 407237766113391 (n (n l 407254745445477 l) 407254761301362 (n l 407254761567329 l)))) 407254762415471 (n (n (n (n l 407254828412015 l) 407254868984178 (n l 407254912300143 l)) 407254912562799 (n (n l 407254945984370 l) 407254946048370 (n l 407254980326255 l))) 407254980651372 (n (n (n l 407255030263393 l) 407255047041647 (n l 407255064144242 l)) 407271975576673 (n (n l 407271975905135 l) 407297711497586 (n l 407297828944495 l))))) 407297879011951 (n (n (n (n (n l 407297879729522 l) 407297929343599 (n l 407297980658287 l)) 407323464551553 (n (n l 407323632039009 l) 407323766517345 (n l 408337244320367 l))) 408337245430130 (n (n (n l 408337277870450 l) 408337278005861 (n l 408337362743909 l)) 408354341349746 (n (n l 408354440703585 l) 408354458660722 (n l 408354525964658 l)))) 408354591961711 (n (n (n (n l 408371487536225 l) 408371603857778 (n l 408371704720993 l)) 408371739320690 (n (n l 408397373599841 l) 408397374841202 (n l 408397390443105 l))) 408397407348079 (n (n (n l 408397407675503 l) 408397408072303 (n l 408397441425778 l)) 408397475505519 (n (n l 408422992671599 l) 408423026356833 (n l 408423027078245 l)))))))
def tSpanish1011 : T := (n (n (n (n (n (n (n l 408423110112367 l) 408423211231602 (n l 408423244458354 l)) 409436587909999 (n (n l 409436589247617 l) 409436772527986 (n l 409436790289765 l))) 409436823057509 (n (n (n l 409436856870497 l) 409453752250991 (n l 409453901997167 l)) 409453902521455 (n (n l 409453953313903 l) 409453969302898 (n l 409454037331826 l)))) 409454053913199 (n (n (n (n l 409454070035041 l) 409470998769775 (n l 409470998832225 l)) 409470999097953 (n (n l 409471082132065 l) 409471132267109 (n l 409496701398113 l))) 409496734756463 (n (n (n l 409496986153583 l) 409496986740079 (n l 409509586428773 l)) 409509586890081 (n (n l 409509587214706 l) 409509653083489 (n l 409509653668210 l))))) 409509720978533 (n (n (n (n (n l 409509820786031 l) 409509821247585 (n l 409509821309807 l)) 409509921386095 (n (n l 409522538706031 l) 410540512076146 (n l 410587640258924 l))) 410592051749220 (n (n (n l 410609113984623 l) 410996182378860 (n l 411635629256289 l)) 411635880124786 (n (n l 411652808339055 l) 411652809060210 (n l 411652909331557 l)))) 411652959072879 (n (n (n (n l 411652992492914 l) 411652992626287 (n l 411652992754034 l)) 411653059473007 (n (n l 411653059732577 l) 411653060715890 (n l 411669972017522 l))) 411670005573999 (n (n (n l 411670240589156 l) 411670306714223 (n l 411695909856626 l)) 411721678676338 (n (n l 416033725313647 l) 416033892562031 (n l 99468850284553582 l)))))) 99468871591949423 (n (n (n (n (n (n l 99468897394189423 l) 99469954108383602 (n l 99469983921365362 l)) 99470022643180655 (n (n l 99471087862311282 l) 99471096569684338 (n l 99472595798353263 l))) 99473252425163122 (n (n (n l 99473269856231794 l) 99474407804068210 (n l 99477650488321402 l)) 99479832481657445 (n (n l 99479840870917221 l) 99479853890037106 (n l 99479866707965039 l)))) 99480932044467297 (n (n (n (n l 99480966454862180 l) 99482040027672175 (n l 99482044262547822 l)) 99482113042511215 (n (n l 99482117421099375 l) 99482491435706991 (n l 99484230611989615 l))) 99484247825937519 (n (n (n l 99484277705761138 l) 99484303576162674 (n l 99484316294411361 l)) 99486429575152481 (n (n l 99486433981723759 l) 99486438057932399 (n l 99486442369870945 l))))) 99486485258731891 (n (n (n (n (n l 99486494016438638 l) 99486502431976559 (n l 99486511089808481 l)) 99487537519555439 (n (n l 99487563289359471 l) 99487563524630898 (n l 99487589192594031 l))) 99487610600975457 (n (n (n l 99489779492484207 l) 99489805262287973 (n l 99490861998178670 l)) 99585522852258671 (n (n l 99585522869560431 l) 99585523020100973 (n l 99585523036873074 l)))) 99585523054112111 (n (n (n (n l 99585523120762732 l) 99585523121218671 (n l 99585523154772847 l)) 99585523155168623 (n (n l 99749242835075425 l) 99749259874564705 (n l 99749264186788993 l))) 99749294234168417 (n (n (n l 99764687537471854 l) 99771224337310817 (n l 99771224578359662 l)) 99771275894155873 (n (n l 99771310477705582 l) 100030691901467759 (n l 100030723762775137 l)))))))
def tSpanish101 : T := n tSpanish1010 408423043852658 tSpanish1011
def tSpanish10 : T := n tSpanish100 403947921700463 tSpanish101
def tSpanish1100 : T := (n (n (n (n (n (n (n l 100030734851203442 l) 100030734984831332 (n l 100030739213216879 l)) 100030743542329967 (n (n l 100030752365963361 l) 100030760872146017 (n l 100030769446151013 l))) 100035090182859873 (n (n (n l 100035137259861103 l) 100035158985767521 (n l 100038384371983215 l)) 100038384405408865 (n (n l 100038470271333473 l) 100039509469721199 (n l 100039557049052257 l)))) 100042816661386341 (n (n (n (n l 100046089476468335 l) 100046119564509550 (n l 100046128080709999 l)) 100046128349539937 (n (n l 100046132324955237 l) 100046136838153586 (n l 100046136905394799 l))) 100046153799791713 (n (n (n l 100052686545711713 l) 100052725150151265 (n l 100052729630321010 l)) 100052742504743278 (n (n l 100052750987916143 l) 100312622682106220 (n l 100316582171800417 l))))) 100316582238906738 (n (n (n (n (n l 100316607974302831 l) 100316625289507941 (n l 100316633710684271 l)) 100316633929577569 (n (n l 100316638022823013 l) 100316638157825135 (n l 100316638257704559 l))) 100316642234100837 (n (n (n l 100316642301338994 l) 100317020727437676 (n l 100320958726106465 l)) 100321031757198447 (n (n l 100321031824566642 l) 100321036069921146 (n l 100327607419955055 l)))) 100334170220036975 (n (n (n (n l 100595922481999730 l) 100603550546029679 (n l 100606896408720225 l)) 100607939801409391 (n (n l 100607939919046245 l) 100607939941532001 (n l 100607948592080751 l))) 100607952753421679 (n (n (n l 100608021545910639 l) 100613437594034546 (n l 100613446166604129 l)) 100613493334245729 (n (n l 100613497824070785 l) 100616727489241458 (n l 100618960989612402 l)))))) 100618990819374191 (n (n (n (n (n (n l 100618990986880370 l) 100619008216493423 (n l 100711422759104111 l)) 100711422927402085 (n (n l 100711422994899809 l) 100711423061615457 (n l 100711423128728687 l))) 100875121243284577 (n (n (n l 100875164210456929 l) 100875572634413420 (n l 100879515162866287 l)) 100887294860423026 (n (n l 100890531710402926 l) 100890553128154223 (n l 100890579033222753 l)))) 100893804267139951 (n (n (n (n l 100893821554688370 l) 101161058574428527 (n l 101161058641540197 l)) 101165409376302181 (n (n l 101168682174603634 l) 101178578030586209 (n l 101178612330038127 l))) 101438522587769196 (n (n (n l 101442464965749857 l) 101442533751615087 (n l 101442920635330405 l)) 101446884486639205 (n (n l 101453481757733473 l) 101453528868415329 (n l 101460104396432485 l))))) 101726181848738145 (n (n (n (n (n l 101732796098308463 l) 101732796265817458 (n l 101732796366353263 l)) 101733839708119418 (n (n l 101733852828036453 l) 101733856954968431 (n l 101733882724774767 l))) 101733908493857903 (n (n (n l 101837322700418159 l) 102001016979620206 (n l 102001064224260462 l)) 102005483638777697 (n (n l 102016478838088801 l) 102023028445310834 (n l 102023028780921957 l)))) 102023092937582956 (n (n (n (n l 102563988167095407 l) 102564422495529338 (n l 102564422495790456 l)) 102568463589860449 (n (n l 102572810270703982 l) 102572814425355365 (n l 102573218587764082 l))) 102573218588419425 (n (n (n l 102579407116462458 l) 102845454855991919 (n l 102845493275156850 l)) 102845519045486945 (n (n l 102845544983061345 l) 102849848305020001 (n l 102849874209041505 l)))))))
def tSpanish1101 : T := (n (n (n (n (n (n (n l 102849887194999137 l) 102849891555961445 (n l 102849908467393647 l)) 102849912970707310 (n (n l 102854250847171183 l) 102854280710943343 (n l 102854280846008690 l))) 102854310843541857 (n (n (n l 102860839243574369 l) 102860882143245423 (n l 102860886371361633 l)) 102860908164964722 (n (n l 102861290635422060 l) 102867445088547425 (n l 103126985364892257 l)))) 103126994290631020 (n (n (n (n l 103127002678321508 l) 103127372448096626 (n l 103131336400922991 l)) 103135766074582394 (n (n l 103142309992168033 l) 103142387251112289 (n l 103148915601992815 l))) 103409568510272882 (n (n (n l 103410616482296929 l) 103410668289552997 (n l 103410672535234930 l)) 103413957966128498 (n (n l 103421585945880431 l) 103424965968360559 (n l 103427104935018849 l))))) 103427105130048623 (n (n (n (n (n l 103427113451680869 l) 103429338401899375 (n l 103526172761354849 l)) 103526172863065199 (n (n l 103526172895831151 l) 103689909547725409 (n l 103689918456623713 l))) 103689926862466145 (n (n (n l 103689931358303333 l) 103689935351278689 (n l 103694307728781935 l)) 103694307778980463 (n (n l 103694333565825903 l) 103694333666881121 (n l 103698735739530849 l)))) 103698740242317678 (n (n (n (n l 103705332909501541 l) 103708614164050799 (n l 103708614331822945 l)) 103711861243212399 (n (n l 103711910167535980 l) 104252825275687276 (n l 104252919872520558 l))) 104257219010329199 (n (n (n l 104257219128157554 l) 104257219229545327 (n l 104257223423583343 l)) 104257223523527026 (n (n l 104257231962597999 l) 104257232013782369 (n l 104257232113723759 l)))))) 104257236358230895 (n (n (n (n (n (n l 104257240441848174 l) 104257257682073189 (n l 104257257732402799 l)) 104257261909862767 (n (n l 104257274728576111 l) 104257274795813234 (n l 104257287645918309 l))) 104257287864284271 (n (n (n l 104257287948690798 l) 104257292143324783 (n l 104257292192543855 l)) 104257300571390323 (n (n l 104257300632663137 l) 104261677404748385 (n l 104268218439068769 l)))) 104274867233583713 (n (n (n (n l 104534313288164463 l) 104534334719689070 (n l 104534343202136420 l)) 104534360298450529 (n (n l 104534368844546414 l) 104538694155072623 (n l 104538736954207329 l))) 104538742911623532 (n (n (n l 104538742911627122 l) 104538749705281906 (n l 104538762657035361 l)) 104538766952002657 (n (n l 104543160954613089 l) 104549727690908783 (n l 104549727707881828 l))))) 104549736516252513 (n (n (n (n (n l 104549745056445541 l) 104556294870696815 (n l 104556341958435186 l)) 104556342125946226 (n (n l 104556342175690095 l) 104815766640096613 (n l 104815809522463855 l))) 104815809696399726 (n (n (n l 104815826876268910 l) 104815835375563873 (n l 104815844149783141 l)) 104815869825941870 (n (n l 104820233271798113 l) 104820233490231905 (n l 104820237885073263 l)))) 104824631559225710 (n (n (n (n l 104824639914279278 l) 104831159802555503 (n l 104831228639011951 l)) 104831228707170145 (n (n l 104831615472132472 l) 104834453924309615 (n l 104834453942333298 l))) 104834471222473825 (n (n (n l 104834488603666031 l) 104837825474162273 (n l 104837825592257903 l)) 104838212541637996 (n (n l 105115954722010213 l) 105117114296330607 (n l 105378720894452079 l)))))))
def tSpanish110 : T := n tSpanish1100 102849882905936238 tSpanish1101
def tSpanish1110 : T := (n (n (n (n (n (n (n l 105378763955073647 l) 105378785419624814 (n l 105387525722236275 l)) 105387564091273829 (n (n l 105387968354870639 l) 105394152907040110 (n l 25464303801909209441 l))) 25464306022581305710 (n (n (n l 25465445138001854817 l) 25467517807473486194 (n l 25467981672749491570 l)) 25468811812736754034 (n (n l 25469656258989616737 l) 25469656289189721466 (n l 25470800163751813490 l)))) 25493893871988993121 (n (n (n (n l 25493893897440031855 l) 25493893901819669615 (n l 25493893923444453999 l)) 25535810536500658542 (n (n l 25535818306096497006 l) 25539753453682458985 (n l 25539856868250575969 l))) 25607864874718495086 (n (n (n l 25607874723313385838 l) 25607874753361380207 (n l 25607973812480206194 l)) 25607973812547315052 (n (n l 25609099712354675809 l) 25609099712471786852 (n l 25609826403708423297 l))))) 25610110073402327406 (n (n (n (n (n l 25610124392655520115 l) 25611815381577269614 (n l 25611914461986776943 l)) 25611914462138164335 (n (n l 25612641561782150511 l) 25612641561782543730 (n l 25612645535886435439 l))) 25612656563901002849 (n (n (n l 25613603312049155169 l) 25681051637267595630 (n l 25681059312636882543 l)) 25681059402568466799 (n (n l 25681157306240296033 l) 25682165472470922341 (n l 25682185229544751983 l)))) 25684698721732559214 (n (n (n (n l 25752824457787042159 l) 25755071859420722277 (n l 25755071889552602223 l)) 25755365424954639215 (n (n l 25755636987146830703 l) 25757040036907477362 (n l 25757043348261206639 l))) 25758461679672451442 (n (n (n l 25824047501132202350 l) 25824047552430041441 (n l 25824146594393844833 l)) 25825174582054388078 (n (n l 25825272494569056620 l) 25828814343895476588 (n l 25829677026436219246 l)))))) 25829776094228803436 (n (n (n (n (n (n l 25896106254754475617 l) 25897330088538894959 (n l 25898351453019531631 l)) 25901724780463288929 (n (n l 25968171485284303713 l) 25970415670131845473 (n l 25970513582365959279 l))) 25973891282187412591 (n (n (n l 26043880638818186341 l) 26043883216335825260 (n l 26043883890175798895 l)) 26045002115049095521 (n (n l 26070354654071972709 l) 26070354654340410735 (n l 26112260285041069185 l)))) 26112277890068152686 (n (n (n (n l 26112286724815880558 l) 26256377745211425134 (n l 26256388693077226593 l)) 26256492158805175905 (n (n l 26257506904998445422 l) 26257506956497547877 (n l 26257515730915452015 l))) 26257520099137978734 (n (n (n l 26258627290211836260 l) 26258640548557647457 (n l 26258743958618862693 l)) 26260317256719040878 (n (n l 26260432808378458977 l) 26328446721241214561 (n l 26328450732412141934 l))))) 26328549752927252332 (n (n (n (n (n l 26328549753027652975 l) 26329576576461010277 (n l 26329675652599737441 l)) 26329675652833834095 (n (n l 26329675652867777647 l) 26330695909386256750 (n l 26330801552673566063 l))) 26332374850756968814 (n (n (n l 26334076220775687009 l) 26334179252477977441 (n l 26400491795120947566 l)) 26400607347015902561 (n (n l 26401733246620819826 l) 26402859146812154991 (n l 26404547996554980961 l)))) 26406236846247667055 (n (n (n (n l 26406236846414983791 l) 26472848439186448754 (n l 26473114963632287343 l)) 26476771513809535342 (n (n l 26477349908291744865 l) 26477613718140911969 (n l 26502700227157910369 l))) 26502700235445859425 (n (n (n l 26502700235529219695 l) 26544624575382847854 (n l 26544722534856224353 l)) 26544722534906032751 (n (n l 26544722534940107887 l) 26544722534973662063 (n l 26545730731325030766 l)))))))
def tSpanish1111 : T := (n (n (n (n (n (n (n l 26545848434964393327 l) 26545848434980645999 (n l 26546858778715521390 l)) 26546869777952830561 (n (n l 26548549874743017825 l) 26548566307364890977 (n l 26549394248328705121 l))) 26549405230559360111 (n (n (n l 26549405238881906546 l) 26549405243393797473 (n l 26550246395515535726 l)) 26688722171272659310 (n (n l 26688837722847669871 l) 26688837723083072623 (n l 26689845884933661028 l)))) 26689846937291359087 (n (n (n (n l 26689851408134209902 l) 26690986039944446318 (n l 26691089522745762927 l)) 26760789678095106414 (n (n l 26760791838362992993 l) 26760796305061871982 (n l 26760895316885595247 l))) 26761921109819162977 (n (n (n l 26761922175071715694 l) 26761923257403474286 (n l 26763041443525388655 l)) 26763147116867052129 (n (n l 26764736937767301985 l) 26764738054247448942 (n l 26764835966727840879 l))))) 26764835966861536879 (n (n (n (n (n l 26766419207459209582 l) 26766425740322571119 (n l 26832848320088277871 l)) 26832852803943951457 (n (n l 26833976491948933473 l) 26835204710922282095 (n l 26835204710972613487 l))) 26835204711039464037 (n (n (n l 26835204711040511087 l) 26836794518702814305 (n l 26836893560967095151 l)) 26837625058472652652 (n (n l 26838582410659586913 l) 26908560780814349167 (n l 26910256202047586657 l)))) 26935045773920137825 (n (n (n (n l 26977068099167675503 l) 26979216867396510831 (n l 26979217554161828206 l)) 26979223004535942753 (n (n l 26980903066698285422 l) 6519080196788393378158 (n l 6519510290591227085166 l))) 6519511992575332221294 (n (n (n l 6519513675275094352242 l) 6519946027032269062497 (n l 6520519100206292959598 l)) 6526436843242206294639 (n (n l 6537169751354234405217 l) 6537194551942699117665 (n l 6555611987817214141810 l)))))) 6555614919900896461166 (n (n (n (n (n (n l 6555615373934539342190 l) 6555929526362527920741 (n l 6556406146051816907617 l)) 6556620514432293568878 (n (n l 6556624734430935417198 l) 6556840180465904739169 (n l 6574635764389272316268 l))) 6592723057895155728750 (n (n (n l 6593373265091357344110 l) 6593446450807355695474 (n l 6610981528164773749601 l)) 6611528401089194656110 (n (n l 6612396188442393608558 l) 6629401219922968478049 (n l 6629404039044878074222 l)))) 6630623216110934778735 (n (n (n (n l 6649290800264691614062 l) 6667089890234203930990 (n l 6667233708592627220851 l)) 6686209656400349783410 (n (n l 6721661992628505898337 l) 6721661992654241624673 (n l 6721661992680079060321 l))) 6721920635155300254062 (n (n (n l 6722238453423809324143 l) 6740082251709125610625 (n l 6740108736745215454817 l)) 6740108736753502876257 (n (n l 6741549888634262744175 l) 6778197053148968550766 (n l 6778631766064668962415 l))))) 6795422592859214539887 (n (n (n (n (n l 6795448968970554664047 l) 6795448968970588218991 (n l 6795710145790063969135 l)) 6795710823235272343918 (n (n l 6795711571873825063791 l) 6795712133707086988129 (n l 6796430727236507435361 l))) 6796432409515168399726 (n (n (n l 6796646066614677832046 l) 6796647853424296684911 (n l 6796890120782527161199 l)) 6815309081430075204449 (n (n l 6832892541758843158894 l) 6850762709519859220846 (n l 6850765537450880958830 l)))) 6851047843671267115374 (n (n (n (n l 6851365661922277944431 l) 6869524175577087042401 (n l 6869524175641494777455 l)) 6869782556476015673710 (n (n l 6870430889069158949743 l) 6870647230012184101217 (n l 6906129433387144146017 l))) 6906705894100758523233 (n (n (n l 6906705894169410630241 l) 1739702377739453983384943 (n l 1739941418131012673171557 l)) 1749145737375162265534830 (n (n l 1754053368998853004263790 l) 1758591263652937569627759 (n l 1768035709514200565247087 l)))))))
def tSpanish111 : T := n tSpanish1110 26545758223393915745 tSpanish1111
def tSpanish11 : T := n tSpanish110 105378750952926305 tSpanish111
def tSpanish1 : T := n tSpanish10 100030726502383982 tSpanish11
def tSpanish : T := n tSpanish0 390745158939745 tSpanish1

def tChineseSimplified0000 : T := (n (n (n (n (n (n (n (n l 31766656 l) 31766657 l) 31766659 (n l 31766663 l)) 31766664 (n (n l 31766665 l) 31766666 (n l 31766667 l))) 31766669 (n (n (n l 31766670 l) 31766675 (n l 31766676 l)) 31766678 (n (n l 31766680 l) 31766681 (n l 31766682 l)))) 31766683 (n (n (n (n l 31766684 l) 31766685 (n l 31766690 l)) 31766692 (n (n l 31766693 l) 31766695 (n l 31766698 l))) 31766701 (n (n (n l 31766704 l) 31766706 (n l 31766708 l)) 31766713 (n (n l 31766714 l) 31766715 (n l 31766717 l))))) 31766718 (n (n (n (n (n l 31766915 l) 31766917 (n l 31766920 l)) 31766921 (n (n l 31766923 l) 31766924 (n l 31766926 l))) 31766927 (n (n (n l 31766928 l) 31766932 (n l 31766936 l)) 31766937 (n (n l 31766941 l) 31766943 (n l 31766944 l)))) 31766945 (n (n (n (n l 31766950 l) 31766960 (n l 31766961 l)) 31766963 (n (n l 31767174 l) 31767176 (n l 31767177 l))) 31767179 (n (n (n l 31767180 l) 31767182 (n l 31767183 l)) 31767185 (n (n l 31767186 l) 31767188 (n l 31767189 l)))))) 31767194 (n (n (n (n (n (n l 31767195 l) 31767201 (n l 31767204 l)) 31767206 (n (n l 31767207 l) 31767209 (n l 31767211 l))) 31767212 (n (n (n l 31767213 l) 31767214 (n l 31767218 l)) 31767226 (n (n l 31767231 l) 31767424 (n l 31767425 l)))) 31767429 (n (n (n (n l 31767431 l) 31767434 (n l 31767435 l)) 31767437 (n (n l 31767438 l) 31767443 (n l 31767444 l))) 31767446 (n (n (n l 31767447 l) 31767448 (n l 31767459 l)) 31767460 (n (n l 31767461 l) 31767466 (n l 31767468 l))))) 31767472 (n (n (n (n (n l 31767474 l) 31767478 (n l 31767479 l)) 31767483 (n (n l 31767485 l) 31767487 (n l 31767681 l))) 31767690 (n (n (n l 31767693 l) 31767695 (n l 31767696 l)) 31767697 (n (n l 31767703 l) 31767704 (n l 31767705 l)))) 31767706 (n (n (n (n l 31767711 l) 31767712 (n l 31767716 l)) 31767718 (n (n l 31767722 l) 31767727 (n l 31767728 l))) 31767732 (n (n (n l 31767736 l) 31767740 (n l 31767942 l)) 31767949 (n (n l 31767950 l) 31767951 (n l 31767955 l)))))))
def tChineseSimplified0001 : T := (n (n (n (n (n (n (n l 31767961 l) 31767963 (n l 31767964 l)) 31767968 (n (n l 31767987 l) 31767999 (n l 31768203 l))) 31768219 (n (n (n l 31768221 l) 31768230 (n l 31768231 l)) 31768232 (n (n l 31768245 l) 31768255 (n l 31768451 l)))) 31768452 (n (n (n (n l 31768471 l) 31768477 (n l 31768481 l)) 31768489 (n (n l 31768494 l) 31817869 (n l 31817874 l))) 31817881 (n (n (n l 31817887 l) 31817889 (n l 31817914 l)) 31817916 (n (n l 31817918 l) 31818119 (n l 31818127 l))))) 31818138 (n (n (n (n (n l 31818140 l) 31818149 (n l 31818166 l)) 31818167 (n (n l 31818175 l) 31818373 (n l 31818408 l))) 31818412 (n (n (n l 31818639 l) 31818650 (n l 31818943 l)) 31819137 (n (n l 31819139 l) 31819140 (n l 31819141 l)))) 31819144 (n (n (n (n l 31819145 l) 31819147 (n l 31819149 l)) 31819162 (n (n l 31819173 l) 31819176 (n l 31819179 l))) 31819180 (n (n (n l 31819181 l) 31819184 (n l 31819185 l)) 31819187 (n (n l 31819188 l) 31819189 (n l 31819190 l)))))) 31819191 (n (n (n (n (n (n l 31819192 l) 31819195 (n l 31819196 l)) 31819397 (n (n l 31819404 l) 31819405 (n l 31819410 l))) 31819417 (n (n (n l 31819419 l) 31819420 (n l 31819424 l)) 31819436 (n (n l 31819439 l) 31819440 (n l 31819442 l)))) 31819443 (n (n (n (n l 31819445 l) 31819446 (n l 31819447 l)) 31819451 (n (n l 31819648 l) 31819654 (n l 31819657 l))) 31819663 (n (n (n l 31819677 l) 31819680 (n l 31819681 l)) 31819684 (n (n l 31819693 l) 31819695 (n l 31819702 l))))) 31819704 (n (n (n (n (n l 31819706 l) 31819707 (n l 31819709 l)) 31819904 (n (n l 31819910 l) 31819911 (n l 31819914 l))) 31819921 (n (n (n l 31819922 l) 31819927 (n l 31819928 l)) 31819929 (n (n l 31819930 l) 31819931 (n l 31819933 l)))) 31819940 (n (n (n (n l 31819945 l) 31819947 (n l 31819950 l)) 31819952 (n (n l 31819958 l) 31819959 (n l 31819962 l))) 31819963 (n (n (n l 31820162 l) 31820170 (n l 31820173 l)) 31820177 (n (n l 31820197 l) 31820199 (n l 31820201 l)))))))
def tChineseSimplified000 : T := n tChineseSimplified0000 31767957 tChineseSimplified0001
def tChineseSimplified0010 : T := (n (n (n (n (n (n (n l 31820207 l) 31820210 (n l 31820443 l)) 31820445 (n (n l 31820446 l) 31820447 (n l 31820448 l))) 31820449 (n (n (n l 31820451 l) 31820456 (n l 31820457 l)) 31820458 (n (n l 31820465 l) 31820466 (n l 31820467 l)))) 31820479 (n (n (n (n l 31820675 l) 31820679 (n l 31820690 l)) 31820696 (n (n l 31820708 l) 31820734 (n l 31820928 l))) 31820933 (n (n (n l 31820950 l) 31820951 (n l 31820986 l)) 31820987 (n (n l 31821185 l) 31821187 (n l 31821191 l))))) 31821192 (n (n (n (n (n l 31821194 l) 31821198 (n l 31821199 l)) 31821205 (n (n l 31821206 l) 31821207 (n l 31821210 l))) 31821216 (n (n (n l 31821217 l) 31821218 (n l 31821227 l)) 31821232 (n (n l 31821233 l) 31821235 (n l 31821236 l)))) 31821237 (n (n (n (n l 31821239 l) 31821240 (n l 31821247 l)) 31821442 (n (n l 31821445 l) 31821446 (n l 31821449 l))) 31821451 (n (n (n l 31821464 l) 31821466 (n l 31821471 l)) 31821499 (n (n l 31821503 l) 31821698 (n l 31821704 l)))))) 31821706 (n (n (n (n (n (n l 31821707 l) 31821708 (n l 31821709 l)) 31821713 (n (n l 31821716 l) 31821718 (n l 31821719 l))) 31821720 (n (n (n l 31821721 l) 31821723 (n l 31821728 l)) 31821731 (n (n l 31821732 l) 31821733 (n l 31821734 l)))) 31821738 (n (n (n (n l 31821739 l) 31821740 (n l 31821743 l)) 31821744 (n (n l 31821746 l) 31821747 (n l 31821750 l))) 31821751 (n (n (n l 31821752 l) 31821753 (n l 31821955 l)) 31821956 (n (n l 31821960 l) 31821961 (n l 31821962 l))))) 31821964 (n (n (n (n (n l 31821965 l) 31821966 (n l 31821967 l)) 31821968 (n (n l 31821969 l) 31821975 (n l 31821979 l))) 31821982 (n (n (n l 31821990 l) 31821991 (n l 31821992 l)) 31821995 (n (n l 31821996 l) 31821999 (n l 31822004 l)))) 31822008 (n (n (n (n l 31822009 l) 31822014 (n l 31822208 l)) 31822214 (n (n l 31822216 l) 31822218 (n l 31822232 l))) 31822242 (n (n (n l 31822248 l) 31822259 (n l 31822261 l)) 31822268 (n (n l 31822269 l) 31822476 (n l 31822504 l)))))))
def tChineseSimplified0011 : T := (n (n (n (n (n (n (n l 31822513 l) 31822720 (n l 31822721 l)) 31822728 (n (n l 31822733 l) 31822757 (n l 31822761 l))) 31822762 (n (n (n l 31822765 l) 31822770 (n l 31822992 l)) 31823022 (n (n l 31823023 l) 31823025 (n l 31823238 l)))) 31823242 (n (n (n (n l 31823269 l) 31823270 (n l 31823490 l)) 31823492 (n (n l 31823498 l) 31823516 (n l 31823517 l))) 31823543 (n (n (n l 31824027 l) 31824052 (n l 31824296 l)) 31824795 (n (n l 31824798 l) 31824800 (n l 31824802 l))))) 31824813 (n (n (n (n (n l 31824816 l) 31824820 (n l 31824826 l)) 31824829 (n (n l 31824830 l) 31825030 (n l 31825032 l))) 31825055 (n (n (n l 31825059 l) 31825064 (n l 31825072 l)) 31825082 (n (n l 31825287 l) 31825295 (n l 31825296 l)))) 31825297 (n (n (n (n l 31825303 l) 31825306 (n l 31825309 l)) 31825313 (n (n l 31825318 l) 31825327 (n l 31825538 l))) 31825540 (n (n (n l 31825547 l) 31825579 (n l 31825795 l)) 31825803 (n (n l 31825806 l) 31825812 (n l 31825823 l)))))) 31825849 (n (n (n (n (n (n l 31825850 l) 31826050 (n l 31826054 l)) 31826081 (n (n l 31826101 l) 31826321 (n l 31826324 l))) 31826328 (n (n (n l 31826334 l) 31826347 (n l 31826563 l)) 31826585 (n (n l 31826590 l) 31826600 (n l 31826817 l)))) 31826852 (n (n (n (n l 31826859 l) 31826862 (n l 31826864 l)) 31826867 (n (n l 31827076 l) 31827079 (n l 31827085 l))) 31827087 (n (n (n l 31827094 l) 31827098 (n l 31827100 l)) 31827103 (n (n l 31827111 l) 31827113 (n l 31827114 l))))) 31827115 (n (n (n (n (n l 31827118 l) 31827121 (n l 31827124 l)) 31827129 (n (n l 31827130 l) 31827335 (n l 31827337 l))) 31827339 (n (n (n l 31827343 l) 31827348 (n l 31827350 l)) 31827351 (n (n l 31827365 l) 31827379 (n l 31827380 l)))) 31827382 (n (n (n (n l 31827385 l) 31827389 (n l 31827586 l)) 31827591 (n (n l 31827592 l) 31827609 (n l 31827621 l))) 31827624 (n (n (n l 31827641 l) 31827643 (n l 31827846 l)) 31827851 (n (n l 31827856 l) 31827857 (n l 31827859 l)))))))
def tChineseSimplified001 : T := n tChineseSimplified0010 31822508 tChineseSimplified0011
def tChineseSimplified00 : T := n tChineseSimplified000 31820202 tChineseSimplified001
def tChineseSimplified0100 : T := (n (n (n (n (n (n (n l 31827866 l) 31827868 (n l 31827899 l)) 31827903 (n (n l 31828097 l) 31828120 (n l 31828358 l))) 31828378 (n (n (n l 31828866 l) 31828905 (n l 31829392 l)) 31829396 (n (n l 31829399 l) 31829400 (n l 31829401 l)))) 31829407 (n (n (n (n l 31829411 l) 31829412 (n l 31829414 l)) 31829417 (n (n l 31829633 l) 31829635 (n l 31829639 l))) 31829640 (n (n (n l 31829641 l) 31829643 (n l 31829644 l)) 31829655 (n (n l 31829656 l) 31829658 (n l 31829660 l))))) 31829661 (n (n (n (n (n l 31829662 l) 31829665 (n l 31829666 l)) 31829667 (n (n l 31829668 l) 31829674 (n l 31829675 l))) 31829683 (n (n (n l 31829684 l) 31829686 (n l 31829689 l)) 31829693 (n (n l 31829694 l) 31829695 (n l 31829892 l)))) 31829894 (n (n (n (n l 31829900 l) 31829906 (n l 31829919 l)) 31829928 (n (n l 31829944 l) 31829945 (n l 31829946 l))) 31829947 (n (n (n l 31829948 l) 31829951 (n l 31830145 l)) 31830148 (n (n l 31830150 l) 31830154 (n l 31830159 l)))))) 31830161 (n (n (n (n (n (n l 31830164 l) 31830166 (n l 31830168 l)) 31830170 (n (n l 31830173 l) 31830180 (n l 31830193 l))) 31830200 (n (n (n l 31830202 l) 31830204 (n l 31830205 l)) 31830206 (n (n l 31830400 l) 31830402 (n l 31830405 l)))) 31830408 (n (n (n (n l 31830410 l) 31830411 (n l 31830415 l)) 31830421 (n (n l 31830430 l) 31830449 (n l 31830657 l))) 31830679 (n (n (n l 31830683 l) 31830697 (n l 31830701 l)) 31830712 (n (n l 31830945 l) 31830960 (n l 31831175 l))))) 31831965 (n (n (n (n (n l 31831966 l) 31831969 (n l 31831973 l)) 31831974 (n (n l 31831975 l) 31831976 (n l 31831977 l))) 31831982 (n (n (n l 31831986 l) 31831988 (n l 31831991 l)) 31832193 (n (n l 31832194 l) 31832195 (n l 31832200 l)))) 31832204 (n (n (n (n l 31832208 l) 31832221 (n l 31832230 l)) 31832237 (n (n l 31832238 l) 31832248 (n l 31832253 l))) 31832453 (n (n (n l 31832469 l) 31832498 (n l 31832499 l)) 31832500 (n (n l 31832502 l) 31832504 (n l 31832507 l)))))))
def tChineseSimplified0101 : T := (n (n (n (n (n (n (n l 31832511 l) 31832708 (n l 31832710 l)) 31832714 (n (n l 31832719 l) 31832723 (n l 31832724 l))) 31832725 (n (n (n l 31832727 l) 31832729 (n l 31832732 l)) 31832735 (n (n l 31832742 l) 31832743 (n l 31832749 l)))) 31832759 (n (n (n (n l 31833014 l) 31833015 (n l 31833018 l)) 31833216 (n (n l 31833218 l) 31833219 (n l 31833220 l))) 31833231 (n (n (n l 31833235 l) 31833237 (n l 31833247 l)) 31833248 (n (n l 31833254 l) 31833255 (n l 31833263 l))))) 31833265 (n (n (n (n (n l 31833273 l) 31833274 (n l 31833490 l)) 31833491 (n (n l 31833493 l) 31833506 (n l 31833513 l))) 31833514 (n (n (n l 31833517 l) 31833521 (n l 31833529 l)) 31833531 (n (n l 31833532 l) 31833728 (n l 31833729 l)))) 31833732 (n (n (n (n l 31833733 l) 31833736 (n l 31833739 l)) 31833744 (n (n l 31833746 l) 31833751 (n l 31833753 l))) 31833761 (n (n (n l 31833770 l) 31833774 (n l 31833783 l)) 31833789 (n (n l 31833987 l) 31833989 (n l 31833990 l)))))) 31833997 (n (n (n (n (n (n l 31834007 l) 31834008 (n l 31834009 l)) 31834016 (n (n l 31834023 l) 31834027 (n l 31834037 l))) 31834045 (n (n (n l 31883392 l) 31883393 (n l 31883406 l)) 31883410 (n (n l 31883413 l) 31883421 (n l 31883429 l)))) 31883431 (n (n (n (n l 31883432 l) 31883434 (n l 31883451 l)) 31883664 (n (n l 31883666 l) 31883682 (n l 31883688 l))) 31883689 (n (n (n l 31883695 l) 31883696 (n l 31883702 l)) 31883908 (n (n l 31883913 l) 31883935 (n l 31883939 l))))) 31883944 (n (n (n (n (n l 31883948 l) 31883954 (n l 31884165 l)) 31884170 (n (n l 31884188 l) 31884192 (n l 31884200 l))) 31884201 (n (n (n l 31884207 l) 31884211 (n l 31884424 l)) 31884431 (n (n l 31884447 l) 31884452 (n l 31884479 l)))) 31884684 (n (n (n (n l 31884706 l) 31884720 (n l 31885186 l)) 31885448 (n (n l 31885455 l) 31885456 (n l 31885457 l))) 31885462 (n (n (n l 31885464 l) 31885482 (n l 31885492 l)) 31885495 (n (n l 31885503 l) 31885696 (n l 31885703 l)))))))
def tChineseSimplified010 : T := n tChineseSimplified0100 31832508 tChineseSimplified0101
def tChineseSimplified0110 : T := (n (n (n (n (n (n (n l 31885709 l) 31885710 (n l 31885713 l)) 31885715 (n (n l 31885720 l) 31885731 (n l 31885735 l))) 31885737 (n (n (n l 31885739 l) 31885740 (n l 31885741 l)) 31885744 (n (n l 31885750 l) 31885753 (n l 31885758 l)))) 31885759 (n (n (n (n l 31885952 l) 31885962 (n l 31885969 l)) 31885971 (n (n l 31885973 l) 31885975 (n l 31885976 l))) 31885978 (n (n (n l 31885979 l) 31885986 (n l 31885988 l)) 31885989 (n (n l 31885996 l) 31886001 (n l 31886005 l))))) 31886009 (n (n (n (n (n l 31886013 l) 31886213 (n l 31886214 l)) 31886217 (n (n l 31886220 l) 31886221 (n l 31886226 l))) 31886228 (n (n (n l 31886230 l) 31886235 (n l 31886236 l)) 31886239 (n (n l 31886245 l) 31886248 (n l 31886249 l)))) 31886252 (n (n (n (n l 31886271 l) 31886465 (n l 31886466 l)) 31886471 (n (n l 31886473 l) 31886481 (n l 31886486 l))) 31886497 (n (n (n l 31886500 l) 31886501 (n l 31886511 l)) 31886522 (n (n l 31886725 l) 31886729 (n l 31886736 l)))))) 31886741 (n (n (n (n (n (n l 31886750 l) 31886751 (n l 31886754 l)) 31886766 (n (n l 31886984 l) 31886985 (n l 31886988 l))) 31886994 (n (n (n l 31887000 l) 31887010 (n l 31887013 l)) 31887015 (n (n l 31887016 l) 31887017 (n l 31887018 l)))) 31887031 (n (n (n (n l 31887241 l) 31887247 (n l 31887248 l)) 31887250 (n (n l 31887265 l) 31887277 (n l 31887284 l))) 31887493 (n (n (n l 31887516 l) 31887518 (n l 31887532 l)) 31887533 (n (n l 31887748 l) 31887750 (n l 31887751 l))))) 31887754 (n (n (n (n (n l 31887768 l) 31887785 (n l 31887800 l)) 31888017 (n (n l 31888018 l) 31888030 (n l 31888036 l))) 31888045 (n (n (n l 31888269 l) 31888294 (n l 31888559 l)) 31888566 (n (n l 31888569 l) 31888571 (n l 31888574 l)))) 31888575 (n (n (n (n l 31888773 l) 31888776 (n l 31888780 l)) 31888783 (n (n l 31888785 l) 31888793 (n l 31888802 l))) 31888803 (n (n (n l 31888812 l) 31888816 (n l 31888818 l)) 31888820 (n (n l 31889031 l) 31889041 (n l 31889047 l)))))))
def tChineseSimplified0111 : T := (n (n (n (n (n (n (n l 31889052 l) 31889060 (n l 31889061 l)) 31889069 (n (n l 31889071 l) 31889072 (n l 31889081 l))) 31889085 (n (n (n l 31889281 l) 31889285 (n l 31889291 l)) 31889295 (n (n l 31889303 l) 31889312 (n l 31889314 l)))) 31889317 (n (n (n (n l 31889318 l) 31889319 (n l 31889320 l)) 31889321 (n (n l 31889324 l) 31889329 (n l 31889334 l))) 31889338 (n (n (n l 31889538 l) 31889542 (n l 31889548 l)) 31889550 (n (n l 31889551 l) 31889555 (n l 31889567 l))))) 31889568 (n (n (n (n (n l 31889573 l) 31889576 (n l 31889583 l)) 31889598 (n (n l 31889803 l) 31889810 (n l 31889811 l))) 31889818 (n (n (n l 31889832 l) 31889838 (n l 31889839 l)) 31889846 (n (n l 31889850 l) 31890050 (n l 31890070 l)))) 31890071 (n (n (n (n l 31890100 l) 31890352 (n l 31890354 l)) 31890356 (n (n l 31890361 l) 31890364 (n l 31890366 l))) 31890367 (n (n (n l 31890560 l) 31890568 (n l 31890569 l)) 31890571 (n (n l 31890573 l) 31890583 (n l 31890587 l)))))) 31890589 (n (n (n (n (n (n l 31890591 l) 31890600 (n l 31890602 l)) 31890603 (n (n l 31890604 l) 31890607 (n l 31890609 l))) 31890613 (n (n (n l 31890618 l) 31890816 (n l 31890818 l)) 31890819 (n (n l 31890822 l) 31890830 (n l 31890832 l)))) 31890833 (n (n (n (n l 31890844 l) 31890847 (n l 31890849 l)) 31890853 (n (n l 31890856 l) 31890861 (n l 31890863 l))) 31890864 (n (n (n l 31890878 l) 31890879 (n l 31891073 l)) 31891076 (n (n l 31891088 l) 31891095 (n l 31891100 l))))) 31891101 (n (n (n (n (n l 31891114 l) 31891119 (n l 31891126 l)) 31891332 (n (n l 31891344 l) 31891347 (n l 31891348 l))) 31891365 (n (n (n l 31891372 l) 31891375 (n l 31891377 l)) 31891379 (n (n l 31891380 l) 31891591 (n l 31891599 l)))) 31891601 (n (n (n (n l 31891617 l) 31891626 (n l 31891639 l)) 31891640 (n (n l 31891641 l) 31891644 (n l 31891645 l))) 31891842 (n (n (n l 31891843 l) 31891846 (n l 31891848 l)) 31891852 (n (n l 31891857 l) 31891875 (n l 31891877 l)))))))
def tChineseSimplified011 : T := n tChineseSimplified0110 31889049 tChineseSimplified0111
def tChineseSimplified01 : T := n tChineseSimplified010 31885707 tChineseSimplified011
def tChineseSimplified0 : T := n tChineseSimplified00 31827860 tChineseSimplified01
def tChineseSimplified1000 : T := (n (n (n (n (n (n (n l 31892101 l) 31892134 (n l 31892143 l)) 31892144 (n (n l 31892352 l) 31892361 (n l 31892363 l))) 31892370 (n (n (n l 31892378 l) 31892398 (n l 31892401 l)) 31892621 (n (n l 31892890 l) 31892924 (n l 31893122 l)))) 31893437 (n (n (n (n l 31893665 l) 31893674 (n l 31893921 l)) 31894689 (n (n l 31894690 l) 31894691 (n l 31894695 l))) 31894706 (n (n (n l 31894714 l) 31894718 (n l 31894919 l)) 31894924 (n (n l 31894946 l) 31894947 (n l 31894948 l))))) 31894949 (n (n (n (n (n l 31894950 l) 31894954 (n l 31894971 l)) 31895178 (n (n l 31895179 l) 31895190 (n l 31895221 l))) 31895231 (n (n (n l 31895425 l) 31895429 (n l 31895437 l)) 31895439 (n (n l 31895442 l) 31895444 (n l 31895445 l)))) 31895451 (n (n (n (n l 31895467 l) 31895695 (n l 31895697 l)) 31895700 (n (n l 31895714 l) 31895719 (n l 31895720 l))) 31895726 (n (n (n l 31895727 l) 31895732 (n l 31895736 l)) 31895937 (n (n l 31895938 l) 31895943 (n l 31895945 l)))))) 31895959 (n (n (n (n (n (n l 31895967 l) 31895968 (n l 31895969 l)) 31895972 (n (n l 31895978 l) 31895997 (n l 31896200 l))) 31896201 (n (n (n l 31896217 l) 31896223 (n l 31896225 l)) 31896235 (n (n l 31896243 l) 31896248 (n l 31896249 l)))) 31896251 (n (n (n (n l 31896255 l) 31896457 (n l 31896469 l)) 31896475 (n (n l 31896481 l) 31896482 (n l 31896485 l))) 31896488 (n (n (n l 31896490 l) 31896496 (n l 31896501 l)) 31896508 (n (n l 31896509 l) 31896705 (n l 31896715 l))))) 31896727 (n (n (n (n (n l 31896731 l) 31896734 (n l 31896741 l)) 31896746 (n (n l 31896754 l) 31896763 (n l 31896766 l))) 31896961 (n (n (n l 31896965 l) 31896966 (n l 31896967 l)) 31896971 (n (n l 31896974 l) 31896979 (n l 31896985 l)))) 31897001 (n (n (n (n l 31897002 l) 31897006 (n l 31897015 l)) 31897016 (n (n l 31897218 l) 31897224 (n l 31897225 l))) 31897228 (n (n (n l 31897252 l) 31897254 (n l 31897256 l)) 31897266 (n (n l 31897472 l) 31897505 (n l 31897518 l)))))))
def tChineseSimplified1001 : T := (n (n (n (n (n (n (n l 31897527 l) 31897531 (n l 31897733 l)) 31897744 (n (n l 31897748 l) 31897751 (n l 31897760 l))) 31897761 (n (n (n l 31897769 l) 31897775 (n l 31897784 l)) 31898006 (n (n l 31898008 l) 31898046 (n l 31898047 l)))) 31898256 (n (n (n (n l 31898268 l) 31898282 (n l 31898294 l)) 31898513 (n (n l 31898522 l) 31898529 (n l 31898532 l))) 31898536 (n (n (n l 31898537 l) 31898548 (n l 31898754 l)) 31898758 (n (n l 31898767 l) 31898772 (n l 31898795 l))))) 31899036 (n (n (n (n (n l 31899054 l) 31899520 (n l 31949196 l)) 31949227 (n (n l 31949229 l) 31949231 (n l 31949232 l))) 31949237 (n (n (n l 31949246 l) 31949449 (n l 31949454 l)) 31949458 (n (n l 31949485 l) 31949486 (n l 31949496 l)))) 31949497 (n (n (n (n l 31949500 l) 31949698 (n l 31949699 l)) 31949704 (n (n l 31949720 l) 31949727 (n l 31949734 l))) 31949735 (n (n (n l 31949741 l) 31949743 (n l 31949751 l)) 31949990 (n (n l 31950000 l) 31950006 (n l 31950244 l)))))) 31950247 (n (n (n (n (n (n l 31950254 l) 31950474 (n l 31950484 l)) 31950489 (n (n l 31950495 l) 31950723 (n l 31950741 l))) 31950757 (n (n (n l 31950982 l) 31951020 (n l 31951025 l)) 31951030 (n (n l 31951031 l) 31951032 (n l 31951033 l)))) 31951239 (n (n (n (n l 31951240 l) 31951244 (n l 31951257 l)) 31951259 (n (n l 31951266 l) 31951271 (n l 31951273 l))) 31951282 (n (n (n l 31951285 l) 31951289 (n l 31951290 l)) 31951535 (n (n l 31951542 l) 31951746 (n l 31951767 l))))) 31951776 (n (n (n (n (n l 31951788 l) 31951793 (n l 31952027 l)) 31952042 (n (n l 31952046 l) 31952516 (n l 31952519 l))) 31952521 (n (n (n l 31952523 l) 31952553 (n l 31952559 l)) 31952560 (n (n l 31952571 l) 31952781 (n l 31952800 l)))) 31952813 (n (n (n (n l 31953027 l) 31953030 (n l 31953076 l)) 31953310 (n (n l 31953539 l) 31953820 (n l 31953830 l))) 31953846 (n (n (n l 31953847 l) 31954072 (n l 31954074 l)) 31954076 (n (n l 31954079 l) 31954088 (n l 31954096 l)))))))
def tChineseSimplified100 : T := n tChineseSimplified1000 31897521 tChineseSimplified1001
def tChineseSimplified1010 : T := (n (n (n (n (n (n (n l 31954098 l) 31954099 (n l 31954101 l)) 31954103 (n (n l 31954107 l) 31954309 (n l 31954316 l))) 31954329 (n (n (n l 31954332 l) 31954341 (n l 31954346 l)) 31954566 (n (n l 31954575 l) 31954577 (n l 31954583 l)))) 31954603 (n (n (n (n l 31954607 l) 31954622 (n l 31954821 l)) 31954823 (n (n l 31954837 l) 31954843 (n l 31955110 l))) 31955387 (n (n (n l 31955389 l) 31955390 (n l 31955588 l)) 31955590 (n (n l 31955591 l) 31955630 (n l 31955633 l))))) 31955846 (n (n (n (n (n l 31955848 l) 31955850 (n l 31955856 l)) 31955857 (n (n l 31955862 l) 31955863 (n l 31955864 l))) 31955867 (n (n (n l 31955871 l) 31955886 (n l 31955892 l)) 31955896 (n (n l 31955902 l) 31956097 (n l 31956105 l)))) 31956107 (n (n (n (n l 31956127 l) 31956156 (n l 31956352 l)) 31956379 (n (n l 31956385 l) 31956387 (n l 31956647 l))) 31956891 (n (n (n l 31956901 l) 31956905 (n l 31956909 l)) 31956910 (n (n l 31956915 l) 31956927 (n l 31957121 l)))))) 31957122 (n (n (n (n (n (n l 31957133 l) 31957140 (n l 31957142 l)) 31957172 (n (n l 31957376 l) 31957381 (n l 31957405 l))) 31957419 (n (n (n l 31957420 l) 31957422 (n l 31957645 l)) 31957646 (n (n l 31957655 l) 31957671 (n l 31957680 l)))) 31957681 (n (n (n (n l 31957683 l) 31957889 (n l 31957928 l)) 31957943 (n (n l 31958202 l) 31958204 (n l 31958206 l))) 31958422 (n (n (n l 31958429 l) 31958430 (n l 31958437 l)) 31958440 (n (n l 31958456 l) 31958657 (n l 31958671 l))))) 31958715 (n (n (n (n (n l 31958912 l) 31958913 (n l 31958923 l)) 31958925 (n (n l 31958929 l) 31958930 (n l 31958936 l))) 31958943 (n (n (n l 31958950 l) 31958951 (n l 31958953 l)) 31958959 (n (n l 31958960 l) 31958971 (n l 31959168 l)))) 31959179 (n (n (n (n l 31959181 l) 31959182 (n l 31959219 l)) 31959227 (n (n l 31959231 l) 31959430 (n l 31959447 l))) 31959478 (n (n (n l 31959479 l) 31959482 (n l 31959487 l)) 31959681 (n (n l 31959703 l) 31959709 (n l 31959947 l)))))))
def tChineseSimplified1011 : T := (n (n (n (n (n (n (n l 31959966 l) 31959967 (n l 31959968 l)) 31959973 (n (n l 31959983 l) 31959993 (n l 31960212 l))) 31960230 (n (n (n l 31960236 l) 31960252 (n l 31960457 l)) 31960459 (n (n l 31960465 l) 31960466 (n l 31960468 l)))) 31960470 (n (n (n (n l 31960475 l) 31960505 (n l 31960510 l)) 31960704 (n (n l 31960727 l) 31960737 (n l 31960749 l))) 31960753 (n (n (n l 31960967 l) 31961255 (n l 31961485 l)) 31961523 (n (n l 31961531 l) 31961737 (n l 31961746 l))))) 31961751 (n (n (n (n (n l 31961752 l) 31961770 (n l 31961774 l)) 31961790 (n (n l 31961994 l) 31962006 (n l 31962043 l))) 31962272 (n (n (n l 31962274 l) 31962279 (n l 31962283 l)) 31962287 (n (n l 31963521 l) 31963808 (n l 31963810 l)))) 31963812 (n (n (n (n l 31963814 l) 31963815 (n l 31963818 l)) 31963820 (n (n l 31963823 l) 31963825 (n l 31963826 l))) 31963827 (n (n (n l 31963829 l) 31963830 (n l 31963831 l)) 31963832 (n (n l 31963833 l) 31963834 (n l 31963839 l)))))) 31964035 (n (n (n (n (n (n l 31964036 l) 31964037 (n l 31964038 l)) 31964039 (n (n l 31964040 l) 31964045 (n l 31964047 l))) 31964050 (n (n (n l 31964051 l) 31964053 (n l 31964056 l)) 31964057 (n (n l 31964060 l) 31964061 (n l 31964063 l)))) 31964071 (n (n (n (n l 31964073 l) 31964074 (n l 31964077 l)) 31964083 (n (n l 31964084 l) 31964092 (n l 31964095 l))) 31964294 (n (n (n l 31964307 l) 31964310 (n l 31964312 l)) 31964317 (n (n l 31964329 l) 31964340 (n l 31964344 l))))) 31964346 (n (n (n (n (n l 31964560 l) 31964561 (n l 31964567 l)) 31964570 (n (n l 31964578 l) 31964585 (n l 31964586 l))) 31964590 (n (n (n l 31964594 l) 31964810 (n l 31964814 l)) 31964836 (n (n l 31964861 l) 31965115 (n l 31965116 l)))) 32014464 (n (n (n (n l 32014465 l) 32014467 (n l 32014469 l)) 32014476 (n (n l 32014480 l) 32014485 (n l 32014487 l))) 32014515 (n (n (n l 32014732 l) 32014740 (n l 32014746 l)) 32014979 (n (n l 32014985 l) 32014988 (n l 32015002 l)))))))
def tChineseSimplified101 : T := n tChineseSimplified1010 31959961 tChineseSimplified1011
def tChineseSimplified10 : T := n tChineseSimplified100 31954097 tChineseSimplified101
def tChineseSimplified1100 : T := (n (n (n (n (n (n (n l 32015009 l) 32015013 (n l 32015017 l)) 32015023 (n (n l 32015026 l) 32015232 (n l 32015233 l))) 32015238 (n (n (n l 32015244 l) 32015246 (n l 32015260 l)) 32015262 (n (n l 32015265 l) 32015286 (n l 32015288 l)))) 32015290 (n (n (n (n l 32015293 l) 32015490 (n l 32015494 l)) 32015497 (n (n l 32015503 l) 32015505 (n l 32015514 l))) 32015537 (n (n (n l 32015544 l) 32015754 (n l 32015760 l)) 32015764 (n (n l 32015792 l) 32015801 (n l 32015806 l))))) 32015807 (n (n (n (n (n l 32016028 l) 32016040 (n l 32016258 l)) 32016291 (n (n l 32016298 l) 32016307 (n l 32016308 l))) 32016525 (n (n (n l 32016530 l) 32016542 (n l 32016543 l)) 32016554 (n (n l 32016556 l) 32016560 (n l 32016569 l)))) 32016775 (n (n (n (n l 32016815 l) 32016816 (n l 32016818 l)) 32016826 (n (n l 32017026 l) 32017071 (n l 32017073 l))) 32017075 (n (n (n l 32017085 l) 32017293 (n l 32017295 l)) 32017303 (n (n l 32017317 l) 32017318 (n l 32017327 l)))))) 32017329 (n (n (n (n (n (n l 32017539 l) 32017550 (n l 32017590 l)) 32017801 (n (n l 32017810 l) 32017825 (n l 32017827 l))) 32017839 (n (n (n l 32017847 l) 32018091 (n l 32018097 l)) 32018098 (n (n l 32018103 l) 32018316 (n l 32018332 l)))) 32018564 (n (n (n (n l 32018597 l) 32018599 (n l 32018600 l)) 32018621 (n (n l 32018849 l) 32018851 (n l 32018865 l))) 32019083 (n (n (n l 32019097 l) 32019128 (n l 32019332 l)) 32019357 (n (n l 32019617 l) 32019628 (n l 32020100 l))))) 32020143 (n (n (n (n (n l 32020367 l) 32020878 (n l 32020881 l)) 32020890 (n (n l 32020907 l) 32020925 (n l 32020926 l))) 32021120 (n (n (n l 32021387 l) 32021665 (n l 32022157 l)) 32022202 (n (n l 32022912 l) 32022924 (n l 32022935 l)))) 32022945 (n (n (n (n l 32022947 l) 32022949 (n l 32022952 l)) 32022960 (n (n l 32023169 l) 32023179 (n l 32023190 l))) 32023211 (n (n (n l 32023213 l) 32023425 (n l 32023426 l)) 32023429 (n (n l 32023445 l) 32023999 (n l 32024193 l)))))))
def tChineseSimplified1101 : T := (n (n (n (n (n (n (n l 32024449 l) 32024450 (n l 32024452 l)) 32024454 (n (n l 32024456 l) 32024457 (n l 32024466 l))) 32024483 (n (n (n l 32024486 l) 32024704 (n l 32026022 l)) 32026273 (n (n l 32026274 l) 32026276 (n l 32026280 l)))) 32026281 (n (n (n (n l 32026285 l) 32026286 (n l 32026287 l)) 32026288 (n (n l 32026290 l) 32026296 (n l 32026298 l))) 32026300 (n (n (n l 32026302 l) 32026303 (n l 32026497 l)) 32026500 (n (n l 32026502 l) 32026505 (n l 32026509 l))))) 32026513 (n (n (n (n (n l 32026517 l) 32026519 (n l 32026522 l)) 32026525 (n (n l 32026533 l) 32026534 (n l 32026540 l))) 32026541 (n (n (n l 32026543 l) 32026548 (n l 32026551 l)) 32026552 (n (n l 32026554 l) 32026555 (n l 32026558 l)))) 32026753 (n (n (n (n l 32026755 l) 32026760 (n l 32026762 l)) 32026763 (n (n l 32026768 l) 32026771 (n l 32026786 l))) 32026801 (n (n (n l 32026807 l) 32027014 (n l 32027041 l)) 32027050 (n (n l 32027276 l) 32027805 (n l 32027807 l)))))) 32027809 (n (n (n (n (n (n l 32027810 l) 32027811 (n l 32027812 l)) 32027813 (n (n l 32027815 l) 32027816 (n l 32027818 l))) 32027819 (n (n (n l 32027821 l) 32027822 (n l 32027823 l)) 32027828 (n (n l 32027829 l) 32027831 (n l 32027832 l)))) 32027833 (n (n (n (n l 32027834 l) 32028036 (n l 32028043 l)) 32028047 (n (n l 32028054 l) 32028059 (n l 32028062 l))) 32028068 (n (n (n l 32028075 l) 32028080 (n l 32028084 l)) 32028085 (n (n l 32028086 l) 32028087 (n l 32028293 l))))) 32028298 (n (n (n (n (n l 32028299 l) 32028323 (n l 32028339 l)) 32028547 (n (n l 32028561 l) 32028573 (n l 32028575 l))) 32028584 (n (n (n l 32028591 l) 32028595 (n l 32028597 l)) 32028815 (n (n l 32029355 l) 32029370 (n l 32030118 l)))) 32030119 (n (n (n (n l 32030120 l) 32030124 (n l 32030126 l)) 32030127 (n (n l 32030128 l) 32030132 (n l 32030139 l))) 32030141 (n (n (n l 32030339 l) 32030341 (n l 32030342 l)) 32030344 (n (n l 32030345 l) 32030346 (n l 32030353 l)))))))
def tChineseSimplified110 : T := n tChineseSimplified1100 32024198 tChineseSimplified1101
def tChineseSimplified1110 : T := (n (n (n (n (n (n (n l 32030358 l) 32030363 (n l 32030366 l)) 32030367 (n (n l 32030376 l) 32030377 (n l 32030393 l))) 32030397 (n (n (n l 32030398 l) 32030593 (n l 32030597 l)) 32030599 (n (n l 32030600 l) 32030606 (n l 32030608 l)))) 32030609 (n (n (n (n l 32030612 l) 32030616 (n l 32030617 l)) 32030619 (n (n l 32030620 l) 32030621 (n l 32030622 l))) 32030623 (n (n (n l 32030635 l) 32030640 (n l 32030647 l)) 32030649 (n (n l 32030653 l) 32080000 (n l 32080001 l))))) 32080002 (n (n (n (n (n l 32080003 l) 32080006 (n l 32080009 l)) 32080015 (n (n l 32080016 l) 32080018 (n l 32080020 l))) 32080026 (n (n (n l 32080031 l) 32080032 (n l 32080046 l)) 32080059 (n (n l 32080060 l) 32080258 (n l 32080263 l)))) 32080269 (n (n (n (n l 32080275 l) 32080279 (n l 32080301 l)) 32080309 (n (n l 32080319 l) 32080512 (n l 32080531 l))) 32080547 (n (n (n l 32080550 l) 32080558 (n l 32080565 l)) 32080571 (n (n l 32080782 l) 32080785 (n l 32080808 l)))))) 32080813 (n (n (n (n (n (n l 32080829 l) 32081293 (n l 32081298 l)) 32081306 (n (n l 32081327 l) 32081329 (n l 32081333 l))) 32081334 (n (n (n l 32081335 l) 32081336 (n l 32081543 l)) 32081554 (n (n l 32081799 l) 32081802 (n l 32081804 l)))) 32081805 (n (n (n (n l 32081806 l) 32081807 (n l 32081809 l)) 32082356 (n (n l 32084616 l) 32084617 (n l 32084633 l))) 32084639 (n (n (n l 32084640 l) 32084642 (n l 32084649 l)) 32084657 (n (n l 32084667 l) 32084670 (n l 32084865 l))))) 32084867 (n (n (n (n (n l 32084869 l) 32084882 (n l 32084892 l)) 32084893 (n (n l 32084918 l) 32084920 (n l 32084922 l))) 32084926 (n (n (n l 32085120 l) 32085121 (n l 32085125 l)) 32085131 (n (n l 32085136 l) 32085145 (n l 32085153 l)))) 32085157 (n (n (n (n l 32085158 l) 32085165 (n l 32085166 l)) 32085179 (n (n l 32085383 l) 32085404 (n l 32085439 l))) 32085928 (n (n (n l 32085930 l) 32085933 (n l 32085934 l)) 32085938 (n (n l 32085940 l) 32085943 (n l 32085945 l)))))))
def tChineseSimplified1111 : T := (n (n (n (n (n (n (n l 32086144 l) 32086145 (n l 32086149 l)) 32086164 (n (n l 32086175 l) 32086194 (n l 32086195 l))) 32086196 (n (n (n l 32086197 l) 32086198 (n l 32086203 l)) 32086207 (n (n l 32086404 l) 32086405 (n l 32086406 l)))) 32086408 (n (n (n (n l 32086413 l) 32086416 (n l 32086421 l)) 32086434 (n (n l 32086436 l) 32086441 (n l 32086442 l))) 32086453 (n (n (n l 32086454 l) 32086455 (n l 32086662 l)) 32086671 (n (n l 32086672 l) 32086676 (n l 32086681 l))))) 32086684 (n (n (n (n (n l 32086710 l) 32086718 (n l 32086916 l)) 32086917 (n (n l 32086918 l) 32086927 (n l 32086933 l))) 32086952 (n (n (n l 32086954 l) 32086966 (n l 32086967 l)) 32086974 (n (n l 32087168 l) 32087175 (n l 32087177 l)))) 32087181 (n (n (n (n l 32087198 l) 32087218 (n l 32087224 l)) 32087442 (n (n l 32087449 l) 32087454 (n l 32087456 l))) 32087458 (n (n (n l 32087465 l) 32087691 (n l 32087974 l)) 32087977 (n (n l 32087987 l) 32088501 (n l 32088502 l)))))) 32088505 (n (n (n (n (n (n l 32088506 l) 32088507 (n l 32088509 l)) 32088510 (n (n l 32088511 l) 32088708 (n l 32088710 l))) 32088711 (n (n (n l 32088721 l) 32088727 (n l 32088728 l)) 32088732 (n (n l 32088733 l) 32088974 (n l 32088984 l)))) 32088990 (n (n (n (n l 32088991 l) 32089517 (n l 32089518 l)) 32089520 (n (n l 32089521 l) 32089522 (n l 32089532 l))) 32089535 (n (n (n l 32089734 l) 32089743 (n l 32089750 l)) 32089753 (n (n l 32090540 l) 32090545 (n l 32090547 l))))) 32090550 (n (n (n (n (n l 32090555 l) 32090558 (n l 32090754 l)) 32090764 (n (n l 32090769 l) 32090775 (n l 32090788 l))) 32090792 (n (n (n l 32091032 l) 32091324 (n l 32091535 l)) 32092604 (n (n l 32092801 l) 32092828 (n l 32094367 l)))) 32094369 (n (n (n (n l 32094371 l) 32094381 (n l 32094399 l)) 32094886 (n (n l 32094907 l) 32095108 (n l 32095118 l))) 32095121 (n (n (n l 32095128 l) 32095379 (n l 32095419 l)) 32095632 (n (n l 32095679 l) 32095876 (n l 32095897 l)))))))
def tChineseSimplified111 : T := n tChineseSimplified1110 32085947 tChineseSimplified1111
def tChineseSimplified11 : T := n tChineseSimplified110 32030355 tChineseSimplified111
def tChineseSimplified1 : T := n tChineseSimplified10 32015008 tChineseSimplified11
def tChineseSimplified : T := n tChineseSimplified0 31892097 tChineseSimplified1

end Cardano.Mnemonic
