import Verif.Lemmas.Bip39Pairs1
import Verif.Lemmas.Bip39Pairs2
import Verif.Props.Mnemonic

/-! # C89: one phrase read in two languages -/

namespace Cardano.Mnemonic

open Cardano Cardano.Spec.Bip39

/-- The two pairs of languages with words in common. -/
def Sisters (l l' : Lang) : Prop :=
  (l, l') ∈ [(.english, .french), (.french, .english),
    (Lang.chineseSimplified, Lang.chineseTraditional), (.chineseTraditional, .chineseSimplified)]

instance (l l' : Lang) : Decidable (Sisters l l') := by unfold Sisters; infer_instance

theorem sep {t : T} {a b : List Nat} (ha : allIn t a = true) (hb : noneIn t b = true) : ∀ n ∈ a, n ∉ b := by
  intro n h1 h2
  have h3 := allIn_sound ha n h1
  rw [noneIn_sound hb n h2] at h3
  cases h3

theorem tables_disjoint (l l' : Lang) (h : l ≠ l') (hp : ¬ Sisters l l') : ∀ n ∈ table l, n ∉ table l' := by
  cases l
  · cases l'
    · exact absurd rfl h
    · exact absurd (by decide) hp
    · exact fun n ha hb => sep inCzech noCzechChineseSimplified n hb ha
    · exact fun n ha hb => sep inEnglish noEnglishChineseSimplified n hb ha
    · exact fun n ha hb => sep inFrench noFrenchChineseSimplified n hb ha
    · exact fun n ha hb => sep inItalian noItalianChineseSimplified n hb ha
    · exact fun n ha hb => sep inJapanese noJapaneseChineseSimplified n hb ha
    · exact fun n ha hb => sep inKorean noKoreanChineseSimplified n hb ha
    · exact fun n ha hb => sep inPortuguese noPortugueseChineseSimplified n hb ha
    · exact fun n ha hb => sep inSpanish noSpanishChineseSimplified n hb ha
  · cases l'
    · exact absurd (by decide) hp
    · exact absurd rfl h
    · exact fun n ha hb => sep inCzech noCzechChineseTraditional n hb ha
    · exact fun n ha hb => sep inEnglish noEnglishChineseTraditional n hb ha
    · exact fun n ha hb => sep inFrench noFrenchChineseTraditional n hb ha
    · exact fun n ha hb => sep inItalian noItalianChineseTraditional n hb ha
    · exact fun n ha hb => sep inJapanese noJapaneseChineseTraditional n hb ha
    · exact fun n ha hb => sep inKorean noKoreanChineseTraditional n hb ha
    · exact fun n ha hb => sep inPortuguese noPortugueseChineseTraditional n hb ha
    · exact fun n ha hb => sep inSpanish noSpanishChineseTraditional n hb ha
  · cases l'
    · exact sep inCzech noCzechChineseSimplified
    · exact sep inCzech noCzechChineseTraditional
    · exact absurd rfl h
    · exact sep inCzech noCzechEnglish
    · exact sep inCzech noCzechFrench
    · exact sep inCzech noCzechItalian
    · exact sep inCzech noCzechJapanese
    · exact sep inCzech noCzechKorean
    · exact sep inCzech noCzechPortuguese
    · exact sep inCzech noCzechSpanish
  · cases l'
    · exact sep inEnglish noEnglishChineseSimplified
    · exact sep inEnglish noEnglishChineseTraditional
    · exact fun n ha hb => sep inCzech noCzechEnglish n hb ha
    · exact absurd rfl h
    · exact absurd (by decide) hp
    · exact sep inEnglish noEnglishItalian
    · exact sep inEnglish noEnglishJapanese
    · exact sep inEnglish noEnglishKorean
    · exact sep inEnglish noEnglishPortuguese
    · exact sep inEnglish noEnglishSpanish
  · cases l'
    · exact sep inFrench noFrenchChineseSimplified
    · exact sep inFrench noFrenchChineseTraditional
    · exact fun n ha hb => sep inCzech noCzechFrench n hb ha
    · exact absurd (by decide) hp
    · exact absurd rfl h
    · exact sep inFrench noFrenchItalian
    · exact sep inFrench noFrenchJapanese
    · exact sep inFrench noFrenchKorean
    · exact sep inFrench noFrenchPortuguese
    · exact sep inFrench noFrenchSpanish
  · cases l'
    · exact sep inItalian noItalianChineseSimplified
    · exact sep inItalian noItalianChineseTraditional
    · exact fun n ha hb => sep inCzech noCzechItalian n hb ha
    · exact fun n ha hb => sep inEnglish noEnglishItalian n hb ha
    · exact fun n ha hb => sep inFrench noFrenchItalian n hb ha
    · exact absurd rfl h
    · exact sep inItalian noItalianJapanese
    · exact sep inItalian noItalianKorean
    · exact sep inItalian noItalianPortuguese
    · exact sep inItalian noItalianSpanish
  · cases l'
    · exact sep inJapanese noJapaneseChineseSimplified
    · exact sep inJapanese noJapaneseChineseTraditional
    · exact fun n ha hb => sep inCzech noCzechJapanese n hb ha
    · exact fun n ha hb => sep inEnglish noEnglishJapanese n hb ha
    · exact fun n ha hb => sep inFrench noFrenchJapanese n hb ha
    · exact fun n ha hb => sep inItalian noItalianJapanese n hb ha
    · exact absurd rfl h
    · exact sep inJapanese noJapaneseKorean
    · exact sep inJapanese noJapanesePortuguese
    · exact sep inJapanese noJapaneseSpanish
  · cases l'
    · exact sep inKorean noKoreanChineseSimplified
    · exact sep inKorean noKoreanChineseTraditional
    · exact fun n ha hb => sep inCzech noCzechKorean n hb ha
    · exact fun n ha hb => sep inEnglish noEnglishKorean n hb ha
    · exact fun n ha hb => sep inFrench noFrenchKorean n hb ha
    · exact fun n ha hb => sep inItalian noItalianKorean n hb ha
    · exact fun n ha hb => sep inJapanese noJapaneseKorean n hb ha
    · exact absurd rfl h
    · exact sep inKorean noKoreanPortuguese
    · exact sep inKorean noKoreanSpanish
  · cases l'
    · exact sep inPortuguese noPortugueseChineseSimplified
    · exact sep inPortuguese noPortugueseChineseTraditional
    · exact fun n ha hb => sep inCzech noCzechPortuguese n hb ha
    · exact fun n ha hb => sep inEnglish noEnglishPortuguese n hb ha
    · exact fun n ha hb => sep inFrench noFrenchPortuguese n hb ha
    · exact fun n ha hb => sep inItalian noItalianPortuguese n hb ha
    · exact fun n ha hb => sep inJapanese noJapanesePortuguese n hb ha
    · exact fun n ha hb => sep inKorean noKoreanPortuguese n hb ha
    · exact absurd rfl h
    · exact sep inPortuguese noPortugueseSpanish
  · cases l'
    · exact sep inSpanish noSpanishChineseSimplified
    · exact sep inSpanish noSpanishChineseTraditional
    · exact fun n ha hb => sep inCzech noCzechSpanish n hb ha
    · exact fun n ha hb => sep inEnglish noEnglishSpanish n hb ha
    · exact fun n ha hb => sep inFrench noFrenchSpanish n hb ha
    · exact fun n ha hb => sep inItalian noItalianSpanish n hb ha
    · exact fun n ha hb => sep inJapanese noJapaneseSpanish n hb ha
    · exact fun n ha hb => sep inKorean noKoreanSpanish n hb ha
    · exact fun n ha hb => sep inPortuguese noPortugueseSpanish n hb ha
    · exact absurd rfl h

theorem dict_number (l : Lang) (w : Bytes) (j : Nat) (h : (getDictionary l)[j]? = some w) : (table l)[j]? = some (wordNum w) := by
  unfold getDictionary at h
  rw [List.getElem?_map] at h
  cases hn : (table l)[j]? with
  | none => rw [hn] at h; cases h
  | some n =>
    rw [hn] at h
    obtain rfl := Option.some.inj h
    rw [((table_facts l).2.2 n (List.mem_of_getElem? hn)).1]

theorem number_mem (l : Lang) (w : Bytes) (h : w ∈ getDictionary l) : wordNum w ∈ table l := by
  obtain ⟨j, hj⟩ := List.mem_iff_getElem?.mp h
  exact List.mem_of_getElem? (dict_number l w j hj)

/-- **C89** Apart from English/French and the two Chinese lists, no word is in two lists. -/
theorem C89_no_common_word (l l' : Lang) (h : l ≠ l') (hp : ¬ Sisters l l') : ∀ w ∈ getDictionary l, w ∉ getDictionary l' :=
  fun w hw hw' => tables_disjoint l l' h hp _ (number_mem l w hw) (number_mem l' w hw')

theorem neZip_sound : ∀ {a b : List Nat}, neZip a b = true → ∀ (i n m : Nat), a[i]? = some n → b[i]? = some m → n ≠ m := by
  intro a
  induction a with
  | nil => intro b _ i n m h; simp at h
  | cons x a ih =>
    intro b hz i n m h1 h2
    cases b with
    | nil => simp at h2
    | cons y b =>
      rw [neZip] at hz
      cases hb : Nat.beq x y with
      | true => rw [hb] at hz; cases hz
      | false =>
        rw [hb] at hz
        cases i with
        | zero =>
          simp only [List.getElem?_cons_zero, Option.some.injEq] at h1 h2
          subst h1; subst h2
          exact Nat.ne_of_beq_eq_false hb
        | succ i =>
          rw [List.getElem?_cons_succ] at h1 h2
          exact ih hz i n m h1 h2

theorem diffZip_mem : ∀ {a b : List Nat} (i n m : Nat), a[i]? = some n → b[i]? = some m → n = m ∨ m ∈ diffZip a b := by
  intro a
  induction a with
  | nil => intro b i n m h; simp at h
  | cons x a ih =>
    intro b i n m h1 h2
    cases b with
    | nil => simp at h2
    | cons y b =>
      rw [diffZip]
      cases i with
      | zero =>
        simp only [List.getElem?_cons_zero, Option.some.injEq] at h1 h2
        subst h1; subst h2
        cases hb : Nat.beq x y with
        | true => exact .inl (Nat.eq_of_beq_eq_true hb)
        | false => exact .inr (by simp)
      | succ i =>
        rw [List.getElem?_cons_succ] at h1 h2
        rcases ih i n m h1 h2 with h | h
        · exact .inl h
        · right
          cases Nat.beq x y
          · exact List.mem_cons_of_mem _ h
          · exact h

/-- **C89** A word in both Chinese lists has the same number in both. -/
theorem C89_chinese_numbers (w : Bytes) (i j : Nat) (hi : (getDictionary .chineseSimplified)[i]? = some w)
    (hj : (getDictionary .chineseTraditional)[j]? = some w) : i = j := by
  have h1 := dict_number _ w i hi
  have h2 := dict_number _ w j hj
  change Bip39.chineseSimplified[i]? = _ at h1
  change Bip39.chineseTraditional[j]? = _ at h2
  have hlen : Bip39.chineseSimplified.length = 2048 := (table_facts .chineseSimplified).1
  have hlen2 : Bip39.chineseTraditional.length = 2048 := (table_facts .chineseTraditional).1
  have hjlt : j < 2048 := by rw [← hlen2]; exact (List.getElem?_eq_some_iff.mp h2).1
  have h3 : Bip39.chineseSimplified[j]? = some (Bip39.chineseSimplified[j]'(by rw [hlen]; exact hjlt)) :=
    List.getElem?_eq_getElem _
  rcases diffZip_mem j _ _ h3 h2 with h | h
  · obtain ⟨hlt, e⟩ := List.getElem?_eq_some_iff.mp h1
    have nd : Bip39.chineseSimplified.Nodup := (table_facts .chineseSimplified).2.1
    exact nodup_getElem nd i j hlt (by rw [hlen]; exact hjlt) (e.trans h.symm)
  · exact absurd h (sep inChineseSimplified noChineseDiff _ (List.mem_of_getElem? h1))

/-- **C89** A word in both the English and the French list has different numbers in them. -/
theorem C89_english_french_numbers (w : Bytes) (i j : Nat) (hi : (getDictionary .english)[i]? = some w)
    (hj : (getDictionary .french)[j]? = some w) : i ≠ j := by
  rintro rfl
  exact neZip_sound neEnglishFrench i _ _ (dict_number _ w i hi) (dict_number _ w i hj) rfl

theorem words_eq {l l' : Lang} {s : Bytes} {m m' : Mn} (h : ofString l s = .ok m) (h' : ofString l' s = .ok m') :
    m.words = m'.words ∧ m.words = splitSpace s := by
  unfold ofString at h h'
  rw [C21_ofWords_ok_iff] at h h'
  exact ⟨by rw [h.2.1, h'.2.1], h.2.1⟩

/-- **C89** (partial: without English/French, where the claim is false) A text accepted as a
phrase in one language is refused in every other, except
between English and French and between the two Chinese scripts. -/
theorem C89_other_language_refused_partial (l l' : Lang) (h : l ≠ l') (hp : ¬ Sisters l l') (s : Bytes) (m : Mn) (hm : ofString l s = .ok m) :
    ofString l' s = .throw .invalidArgument := by
  rcases C21_ofString_defined l' s with ⟨m', hm'⟩ | h'
  · exfalso
    obtain ⟨h1, _, h3⟩ := (C21_ofString_ok_iff l s m).mp hm
    obtain ⟨_, _, h3'⟩ := (C21_ofString_ok_iff l' s m').mp hm'
    have hw := (words_eq hm hm').1
    have hne : m.words ≠ [] := by intro h0; rw [h0] at h1; simp [ValidSize] at h1
    obtain ⟨w, ws, e⟩ := List.exists_cons_of_ne_nil hne
    have mem : ∀ (l : Lang) (m : Mn), m.indexes.map ((getDictionary l)[·]?) = m.words.map some → w ∈ m.words → w ∈ getDictionary l := by
      intro l m hx hw
      have : some w ∈ m.indexes.map ((getDictionary l)[·]?) := by rw [hx]; exact List.mem_map_of_mem hw
      obtain ⟨i, _, hi⟩ := List.mem_map.mp this
      exact List.mem_of_getElem? hi
    have hw1 : w ∈ m.words := by rw [e]; simp
    exact C89_no_common_word l l' h hp w (mem l m h3 hw1) (mem l' m' h3' (by rw [← hw]; exact hw1))
  · exact h'

/-- **C89** A text accepted in both Chinese scripts is the same phrase: same words, same
numbers, hence same entropy and same verdict of the checksum. -/
theorem C89_chinese_same_phrase (s : Bytes) (m m' : Mn) (h : ofString .chineseSimplified s = .ok m)
    (h' : ofString .chineseTraditional s = .ok m') : m = m' := by
  have h3 := ((C21_ofString_ok_iff _ s m).mp h).2.2
  have h3' := ((C21_ofString_ok_iff _ s m').mp h').2.2
  have hw := (words_eq h h').1
  obtain ⟨ws, ix⟩ := m
  obtain ⟨ws', ix'⟩ := m'
  simp only at hw h3 h3'
  subst hw
  congr 1
  clear h h'
  induction ws generalizing ix ix' with
  | nil =>
    rw [List.map_nil, List.map_eq_nil_iff] at h3 h3'
    rw [h3, h3']
  | cons w ws ih =>
    cases ix with
    | nil => simp at h3
    | cons i ix =>
      cases ix' with
      | nil => simp at h3'
      | cons j ix' =>
        rw [List.map_cons, List.map_cons] at h3 h3'
        obtain ⟨a1, a2⟩ := List.cons.inj h3
        obtain ⟨b1, b2⟩ := List.cons.inj h3'
        rw [C89_chinese_numbers w i j a1 b1, ih ix a2 ix' b2]

/-- **C89** fails between English and French: a text accepted in both always stands for two
different entropies (already the first 11 bits differ). -/
theorem C89_english_french_differ (s : Bytes) (m m' : Mn) (h : ofString .english s = .ok m)
    (h' : ofString .french s = .ok m') : ∃ e e', toSeed m = .ok e ∧ toSeed m' = .ok e' ∧ e ≠ e' := by
  obtain ⟨v1, v2⟩ := C21_ofString_indexes _ s m h
  obtain ⟨v1', v2'⟩ := C21_ofString_indexes _ s m' h'
  obtain ⟨e, c, t1, t2, t3, _⟩ := C19_toEntropy_spec m v1 v2
  obtain ⟨e', c', t1', t2', t3', _⟩ := C19_toEntropy_spec m' v1' v2'
  refine ⟨e, e', by unfold toSeed; rw [t1]; rfl, by unfold toSeed; rw [t1']; rfl, ?_⟩
  rintro rfl
  obtain ⟨h1, _, h3⟩ := (C21_ofString_ok_iff _ s m).mp h
  obtain ⟨_, _, h3'⟩ := (C21_ofString_ok_iff _ s m').mp h'
  have hw := (words_eq h h').1
  have hne : m.words ≠ [] := by intro h0; rw [h0] at h1; simp [ValidSize] at h1
  obtain ⟨w, ws, ew⟩ := List.exists_cons_of_ne_nil hne
  obtain ⟨wds, ix⟩ := m
  obtain ⟨wds', ix'⟩ := m'
  simp only at *
  subst hw; subst ew
  cases ix with
  | nil => simp [ValidSize] at v1
  | cons i ix =>
    cases ix' with
    | nil => simp [ValidSize] at v1'
    | cons j ix' =>
      rw [List.map_cons, List.map_cons] at h3 h3'
      have hij := C89_english_french_numbers w i j (List.cons.inj h3).1 (List.cons.inj h3').1
      apply hij
      have key : ∀ (i : Nat) (ix : List Nat) (c : Nat), ValidSize (i :: ix).length → 3 * e.length = 4 * (i :: ix).length →
          wordBits (i :: ix) = byteBits e ++ bitsBE ((i :: ix).length / 3) c → bitsBE 11 i = (byteBits e).take 11 := by
        intro i ix c hv hl hb
        have hlen : 11 ≤ (byteBits e).length := by
          rw [byteBits_length]
          simp only [ValidSize, List.length_cons] at hv hl
          simp at hv
          omega
        have := congrArg (List.take 11) hb
        rw [List.take_append_of_le_length hlen] at this
        rw [← this]
        have h11 : (bitsBE 11 i).length = 11 := by simp [bitsBE]
        show _ = List.take 11 (bitsBE 11 i ++ _)
        rw [List.take_left' h11]
      have e1 := key i ix c v1 t2 t3
      have e2 := key j ix' c' v1' t2' t3'
      have : toBits 11 i = toBits 11 j := by rw [← bitsBE_eq, ← bitsBE_eq, e1, e2]
      exact toBits_inj_lt (v2 i (by simp)) (v2' j (by simp)) this

/-- Such texts exist: "essence" nine times is accepted in both. -/
theorem C89_ambiguous_text : ∃ s m m', ofString .english s = .ok m ∧ ofString .french s = .ok m' := by
  have he : (getDictionary .english)[618]? = some (ascii "essence") := by decide +kernel
  have hf : (getDictionary .french)[725]? = some (ascii "essence") := by decide +kernel
  refine ⟨specJoin (List.replicate 9 (ascii "essence")), ⟨List.replicate 9 (ascii "essence"), List.replicate 9 618⟩,
    ⟨List.replicate 9 (ascii "essence"), List.replicate 9 725⟩, ?_, ?_⟩
  · rw [C21_ofString_ok_iff]
    exact ⟨by simp [ValidSize], rfl, by rw [List.map_replicate, List.map_replicate, he]⟩
  · rw [C21_ofString_ok_iff]
    exact ⟨by simp [ValidSize], rfl, by rw [List.map_replicate, List.map_replicate, hf]⟩

-- the first Chinese words are in both lists
example : ∃ s m, ofString .chineseSimplified s = .ok m ∧ ofString .chineseTraditional s = .ok m := by
  have h1 : (getDictionary .chineseSimplified)[1]? = some [228, 184, 128] := by decide +kernel
  have h2 : (getDictionary .chineseTraditional)[1]? = some [228, 184, 128] := by decide +kernel
  refine ⟨specJoin (List.replicate 12 [228, 184, 128]), ⟨List.replicate 12 [228, 184, 128], List.replicate 12 1⟩, ?_, ?_⟩
  · rw [C21_ofString_ok_iff]
    exact ⟨by simp [ValidSize], rfl, by rw [List.map_replicate, List.map_replicate, h1]⟩
  · rw [C21_ofString_ok_iff]
    exact ⟨by simp [ValidSize], rfl, by rw [List.map_replicate, List.map_replicate, h2]⟩
example : Lang.english ≠ .spanish ∧ ¬ Sisters .english .spanish := by decide

end Cardano.Mnemonic
