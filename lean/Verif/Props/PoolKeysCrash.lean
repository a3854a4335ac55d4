import Verif.Model.PoolKeysCrash
import Verif.Props.PoolKeysDisk

/-! # C105: the example program killed at any moment -/

namespace Cardano.PoolKeys

open Cardano Cardano.Ed Cardano.Util Cardano.Pool Cardano.Bip173 Cardano.Spec.Bip32

theorem run_call {α : Type} (dk : String → Disk) (x : Out α) (rest : α → Prog) :
    (Prog.call x rest).run dk = call x (fun a => (rest a).run dk) := by
  funext fs
  cases x <;> rfl

/-- The list of writes, run to its end, is the program of C95. -/
theorem run_prog (E : Env) (S : SigHash) (dk : String → Disk) (text kesSeed vrfRandom : Bytes) :
    (prog E S text kesSeed vrfRandom).run dk = main E S dk text kesSeed vrfRandom := by
  unfold prog main
  simp only [run_call, Prog.run]

/-- Files written one after the other, then the end. -/
def progSeries (ws : List (String × (Disk → Bytes → Bytes × Out Unit))) (printed : Bytes) : Prog :=
  ws.foldr (fun w rest => .save w.1 w.2 rest) (.stop (.ok printed))

theorem prog_eq (E : Env) (S : SigHash) (text kesSeed vrfRandom : Bytes) (v : Values) (h : Computes E S text kesSeed vrfRandom v) :
    prog E S text kesSeed vrfRandom = progSeries (writers v) v.printed := by
  obtain ⟨mn, h1, h2⟩ := h.mn
  obtain ⟨pk, w, h3, h4⟩ := h.kes
  have hk : (do let (s, _, _) ← Kes.keygen S 6 kesSeed; kesGenerate s) = .ok v.kesSkey := by rw [h3]; exact h4
  have hc : ∀ {α : Type} (x : Out α) (a : α) (rest : α → Prog), x = .ok a → Prog.call x rest = rest a := by
    intro α x a rest e; subst e; rfl
  unfold prog
  rw [hc _ _ _ h1, hc _ _ _ h2, hc _ _ _ h.coldVkey, hc _ _ _ h.printed, hc _ _ _ hk, hc _ _ _ h.kesVkey, hc _ _ _ h.cert]
  simp only [h.vrf.1, h.vrf.2]
  rfl

/-- What the directory may be at a kill, said file by file: the files before number `i` have their new content, number
`i` is as before or holds an initial part of its new content, all others are as before. -/
def Torn (order : List String) (content : String → Bytes) (fs fs' : Dir) : Prop :=
  ∃ i ≤ order.length, (∀ n ∈ order.take i, fs' n = some (content n)) ∧
    (∀ n, order[i]? = some n → fs' n = fs n ∨ ∃ f, fs' n = some f ∧ f <+: content n) ∧
    ∀ n, n ∉ order.take (i + 1) → fs' n = fs n

theorem series_killed (dk : String → Disk) (content : String → Bytes) (printed : Bytes) :
    ∀ (ws : List (String × (Disk → Bytes → Bytes × Out Unit))) (fs fs' : Dir), (ws.map (·.1)).Nodup →
    (∀ w ∈ ws, (dk w.1).openable = true ∧ ∀ old, w.2 (dk w.1) old = (content w.1, .ok ())) →
    (Killed dk (progSeries ws printed) fs fs' ↔ Torn (ws.map (·.1)) content fs fs') := by
  intro ws
  induction ws with
  | nil =>
    intro fs fs' _ _
    constructor
    · intro h
      cases h
      exact ⟨0, Nat.le_refl _, by simp, by simp, by simp⟩
    · rintro ⟨i, -, -, -, h⟩
      obtain rfl : fs' = fs := funext fun n => h n (by simp)
      exact .now _ _
  | cons w ws ih =>
    intro fs fs' hnd hw
    obtain ⟨ho, hc⟩ := hw w (by simp)
    rw [List.map_cons, List.nodup_cons] at hnd
    have ih := fun fs fs' => ih fs fs' hnd.2 (fun w' h => hw w' (by simp [h]))
    have hs : progSeries (w :: ws) printed = .save w.1 w.2 (progSeries ws printed) := rfl
    rw [hs, List.map_cons]
    constructor
    · intro h
      generalize hp : Prog.save w.1 w.2 (progSeries ws printed) = p at h
      cases h with
      | now => exact ⟨0, Nat.zero_le _, by simp, fun n _ => .inl rfl, fun n _ => rfl⟩
      | writing name w' rest _ f h1 h2 =>
        injection hp with e1 e2 e3
        subst e1 e2
        rw [hc] at h2
        refine ⟨0, Nat.zero_le _, by simp, ?_, ?_⟩
        · intro n hn
          obtain rfl : w.1 = n := by simpa using hn
          exact .inr ⟨f, by simp [Dir.set], h2⟩
        · intro n hn
          have : n ≠ w.1 := by simpa using hn
          simp [Dir.set, this]
      | later name w' rest _ _ c h1 h2 h3 =>
        injection hp with e1 e2 e3
        subst e1 e2 e3
        rw [hc] at h2
        obtain ⟨rfl, -⟩ := Prod.mk.inj h2
        obtain ⟨i, hi, k1, k2, k3⟩ := (ih _ _).mp h3
        have hother : ∀ m, m ≠ w.1 → (fs.set w.1 (content w.1)) m = fs m := by
          intro m hm; simp [Dir.set, hm]
        refine ⟨i + 1, by simp only [List.length_cons]; omega, ?_, ?_, ?_⟩
        · intro n hn
          simp only [List.take_succ_cons, List.mem_cons] at hn
          rcases hn with rfl | hn
          · rw [k3 _ (fun h => hnd.1 (List.mem_of_mem_take h))]; simp [Dir.set]
          · exact k1 n hn
        · intro n hn
          have hn' : (ws.map (·.1))[i]? = some n := by simpa using hn
          have hne : n ≠ w.1 := by rintro rfl; exact hnd.1 (List.mem_of_getElem? hn')
          rcases k2 n hn' with h | h
          · exact .inl (by rw [h, hother n hne])
          · exact .inr h
        · intro n hn
          simp only [List.take_succ_cons, List.mem_cons, not_or] at hn
          rw [k3 n hn.2, hother n hn.1]
    · rintro ⟨i, hi, k1, k2, k3⟩
      match i with
      | 0 =>
        rcases k2 w.1 (by simp) with h | ⟨f, h1, h2⟩
        · obtain rfl : fs' = fs := by
            funext n
            by_cases hn : n = w.1
            · rw [hn, h]
            · exact k3 n (by simpa using hn)
          exact .now _ _
        · obtain rfl : fs' = fs.set w.1 f := by
            funext n
            by_cases hn : n = w.1
            · rw [hn, h1]; simp [Dir.set]
            · rw [k3 n (by simpa using hn)]; simp [Dir.set, hn]
          exact .writing _ _ _ _ _ ho (by rw [hc]; exact h2)
      | i + 1 =>
        refine .later _ _ _ _ _ (content w.1) ho (hc _) ((ih _ _).mpr ⟨i, ?_, ?_, ?_, ?_⟩)
        · simp only [List.length_cons] at hi; omega
        · intro n hn
          exact k1 n (by simp [hn])
        · intro n hn
          have hne : n ≠ w.1 := by rintro rfl; exact hnd.1 (List.mem_of_getElem? hn)
          rcases k2 n (by simpa using hn) with h | h
          · exact .inl (by rw [h]; simp [Dir.set, hne])
          · exact .inr h
        · intro n hn
          by_cases hne : n = w.1
          · subst hne
            rw [k1 _ (by simp)]; simp [Dir.set]
          · rw [k3 n (by simp [hne, hn])]; simp [Dir.set, hne]

theorem writers_good (E : Env) (S : SigHash) (dk : String → Disk) (kesSeed : Bytes) (v : Values)
    (h : Consistent E S kesSeed v v.cert.serialize) (hc : v.cert.WF) (hg : ∀ n ∈ names, Good (dk n)) :
    ∀ w ∈ writers v, (dk w.1).openable = true ∧ ∀ old, w.2 (dk w.1) old = (v.content v.cert.serialize w.1, .ok ()) := by
  intro w hw
  have hn : w.1 ∈ names := by
    have : w.1 ∈ (writers v).map (·.1) := List.mem_map_of_mem hw
    exact this
  have hg := hg _ hn
  have C := fun old => contents E S kesSeed v h hc (dk w.1) old hg
  refine ⟨hg.1, ?_⟩
  simp only [writers, List.mem_cons, List.not_mem_nil, or_false] at hw
  rcases hw with rfl | rfl | rfl | rfl | rfl | rfl | rfl | rfl
  · exact fun old => (C old).1
  · exact fun old => (C old).2.1
  · exact fun old => (C old).2.2.1
  · exact fun old => (C old).2.2.2.1
  · exact fun old => (C old).2.2.2.2.1
  · exact fun old => (C old).2.2.2.2.2.1
  · exact fun old => (C old).2.2.2.2.2.2.1
  · exact fun old => (C old).2.2.2.2.2.2.2

/-- **C105** The program killed at any moment, started in any directory: exactly the directories in which, for some number
`i`, the first `i` files have their new content, the next one is as before or holds an initial part of its new content, and
everything else is as before.  The new contents belong together as in C95. -/
theorem C105_killed_iff (E : Env) (S : SigHash) (dk : String → Disk) (text kesSeed vrfRandom : Bytes)
    (mn : Mnemonic.Mn) (hmn : Mnemonic.ofString .english text = .ok mn) (hk : kesSeed.length = 32) (hv : vrfRandom.length = 32)
    (hnonce : ∀ k msg hot, fromMnemonic E mn = .ok k → hot.length = 32 → SignableBytes hot 0 1 msg →
      ¬ ellL ∣ leNat (E.P.sha512 (k.key.drop 32 ++ msg))) (hg : ∀ n ∈ names, Good (dk n)) :
    ∃ v b, fromMnemonic E mn = .ok v.coldSkey ∧ Consistent E S kesSeed v b ∧
      ∀ fs fs', Killed dk (prog E S text kesSeed vrfRandom) fs fs' ↔ Torn names (v.content b) fs fs' := by
  obtain ⟨v, h1, h2, h3⟩ := computes E S text kesSeed vrfRandom mn hmn hk hv hnonce
  obtain ⟨mn', e1, e2⟩ := h1.mn
  obtain rfl : mn = mn' := Out.ok.inj (hmn.symm.trans e1)
  refine ⟨v, _, e2, h2, fun fs fs' => ?_⟩
  rw [prog_eq E S _ _ _ v h1]
  exact series_killed dk _ _ (writers v) fs fs' (show names.Nodup by decide) (writers_good E S dk kesSeed v h2 h3 hg)

/-- A file that is not as before: all files before it are complete. -/
theorem torn_before {content : String → Bytes} {fs fs' : Dir} (h : Torn names content fs fs') (j : Nat) (n : String)
    (hn : names[j]? = some n) (hne : fs' n ≠ fs n) : ∀ m ∈ names.take j, fs' m = some (content m) := by
  obtain ⟨i, hi, h1, h2, h3⟩ := h
  have hmem : n ∈ names.take (i + 1) := by
    by_contra hx
    exact hne (h3 n hx)
  have hji : j ≤ i := by
    by_contra hx
    obtain ⟨k, hk, e⟩ := List.mem_take_iff_getElem.mp hmem
    have hj : j < names.length := by
      by_contra hx'
      rw [List.getElem?_eq_none (by omega)] at hn
      cases hn
    rw [List.getElem?_eq_getElem hj] at hn
    have hd : names.Nodup := by decide
    have := (List.Nodup.getElem_inj_iff hd (hi := by omega) (hj := hj)).mp (e.trans (Option.some.inj hn).symm)
    omega
  intro m hm
  exact h1 m ((List.take_subset_take_left names hji) hm)

/-- **C105** A certificate is never on the disk without its keys: whenever `pool.cert` is not as before, the cold keys, the
KES keys and the counter of the same run are complete. -/
theorem C105_certificate_after_keys (E : Env) (S : SigHash) (dk : String → Disk) (text kesSeed vrfRandom : Bytes)
    (mn : Mnemonic.Mn) (hmn : Mnemonic.ofString .english text = .ok mn) (hk : kesSeed.length = 32) (hv : vrfRandom.length = 32)
    (hnonce : ∀ k msg hot, fromMnemonic E mn = .ok k → hot.length = 32 → SignableBytes hot 0 1 msg →
      ¬ ellL ∣ leNat (E.P.sha512 (k.key.drop 32 ++ msg))) (hg : ∀ n ∈ names, Good (dk n)) :
    ∃ v b, fromMnemonic E mn = .ok v.coldSkey ∧ Consistent E S kesSeed v b ∧
      ∀ fs fs', Killed dk (prog E S text kesSeed vrfRandom) fs fs' → fs' "./pool.cert" ≠ fs "./pool.cert" →
        ∀ n ∈ ["./cold.skey", "./cold.vkey", "./kes.skey", "./kes.vkey", "./cold.counter"], fs' n = some (v.content b n) := by
  obtain ⟨v, b, h1, h2, h3⟩ := C105_killed_iff E S dk text kesSeed vrfRandom mn hmn hk hv hnonce hg
  exact ⟨v, b, h1, h2, fun fs fs' h hne => torn_before ((h3 fs fs').mp h) 5 "./pool.cert" rfl hne⟩

/-- **C105** Running the program again, to its end, after it was killed gives the directory that the first run would have
given. -/
theorem C105_rerun (E : Env) (S : SigHash) (dk : String → Disk) (text kesSeed vrfRandom : Bytes)
    (mn : Mnemonic.Mn) (hmn : Mnemonic.ofString .english text = .ok mn) (hk : kesSeed.length = 32) (hv : vrfRandom.length = 32)
    (hnonce : ∀ k msg hot, fromMnemonic E mn = .ok k → hot.length = 32 → SignableBytes hot 0 1 msg →
      ¬ ellL ∣ leNat (E.P.sha512 (k.key.drop 32 ++ msg))) (hg : ∀ n ∈ names, Good (dk n)) (fs fs' : Dir)
    (h : Killed dk (prog E S text kesSeed vrfRandom) fs fs') :
    main E S dk text kesSeed vrfRandom fs' = main E S dk text kesSeed vrfRandom fs := by
  obtain ⟨v, h1, h2, h3⟩ := computes E S text kesSeed vrfRandom mn hmn hk hv hnonce
  rw [prog_eq E S _ _ _ v h1, series_killed dk _ _ (writers v) fs fs' (show names.Nodup by decide)
    (writers_good E S dk kesSeed v h2 h3 hg)] at h
  rw [(main_run E S dk text kesSeed vrfRandom v h1 h2 h3 fs').1 hg, (main_run E S dk text kesSeed vrfRandom v h1 h2 h3 fs).1 hg]
  congr 1
  funext n
  by_cases hn : n ∈ names
  · rw [(after_spec v _ 8 fs' n).1 hn, (after_spec v _ 8 fs n).1 hn]
  · rw [(after_spec v _ 8 fs' n).2 hn, (after_spec v _ 8 fs n).2 hn]
    obtain ⟨i, -, -, -, h⟩ := h
    exact h n (fun hx => hn (List.mem_of_mem_take hx))

theorem hex_inj {a b : Bytes} (h : Hex.encode a = Hex.encode b) : a = b := by
  have := congrArg Hex.decode h
  rw [(Hex.C01_hex_roundtrip a).1, (Hex.C01_hex_roundtrip b).1] at this
  exact Out.ok.inj this

/-- **C105** A finding: the program killed over the files of an earlier run.  There is a moment at which the earlier cold key is
gone and the new one not yet there; and, if the earlier run was for another cold key, a moment at which the directory is a
mixture that no run of the program makes: the keys of one pool with the certificate of another. -/
theorem C105_mixture (E : Env) (S : SigHash) (dk : String → Disk) (text kesSeed vrfRandom : Bytes)
    (mn : Mnemonic.Mn) (hmn : Mnemonic.ofString .english text = .ok mn) (hk : kesSeed.length = 32) (hv : vrfRandom.length = 32)
    (hnonce : ∀ k msg hot, fromMnemonic E mn = .ok k → hot.length = 32 → SignableBytes hot 0 1 msg →
      ¬ ellL ∣ leNat (E.P.sha512 (k.key.drop 32 ++ msg))) (hg : ∀ n ∈ names, Good (dk n)) :
    ∃ v : Values, fromMnemonic E mn = .ok v.coldSkey ∧ v.coldVkey = E.C.enc (leNat (v.coldSkey.key.take 32) • E.C.B) ∧
      ∀ fs, (∃ fs', Killed dk (prog E S text kesSeed vrfRandom) fs fs' ∧ fs' "./cold.skey" = some []) ∧
        ∀ (v₀ : Values) b₀ seed₀, Consistent E S seed₀ v₀ b₀ → (∀ n ∈ names, fs n = some (v₀.content b₀ n)) → v₀.coldVkey ≠ v.coldVkey →
          ∃ fs', Killed dk (prog E S text kesSeed vrfRandom) fs fs' ∧
            ¬ ∃ w b seed, Consistent E S seed w b ∧ ∀ n ∈ names, fs' n = some (w.content b n) := by
  obtain ⟨v, b, h1, h2, h3⟩ := C105_killed_iff E S dk text kesSeed vrfRandom mn hmn hk hv hnonce hg
  refine ⟨v, h1, h2.cold, fun fs => ⟨⟨fs.set "./cold.skey" [], (h3 _ _).mpr ⟨0, by decide, by simp, ?_, ?_⟩, by simp [Dir.set]⟩, ?_⟩⟩
  · intro n hn
    obtain rfl : "./cold.skey" = n := by simpa [names] using hn
    exact .inr ⟨[], by simp [Dir.set], List.nil_prefix⟩
  · intro n hn
    have : n ≠ "./cold.skey" := by simpa [names] using hn
    simp [Dir.set, this]
  · intro v₀ b₀ seed₀ hc₀ hfs hne
    refine ⟨after v b 2 fs, (h3 _ _).mpr ⟨2, by decide, fun n hn => (after_spec v b 2 fs n).1 hn, ?_, ?_⟩, ?_⟩
    · intro n hn
      obtain rfl : "./kes.skey" = n := by simpa [names] using hn
      exact .inl ((after_spec v b 2 fs _).2 (by decide))
    · intro n hn
      exact (after_spec v b 2 fs n).2 (fun hx => hn ((List.take_subset_take_left names (by decide)) hx))
    · rintro ⟨w, b', seed, hw, hall⟩
      have a1 := hall "./cold.vkey" (by decide)
      rw [(after_spec v b 2 fs _).1 (by decide)] at a1
      have a2 := hall "./pool.cert" (by decide)
      rw [(after_spec v b 2 fs _).2 (by decide), hfs _ (by decide)] at a2
      have hexq : ∀ x : Bytes, (34 : UInt8) ∉ Hex.encode x := by
        intro x hx
        have := (Hex.C01_hex_roundtrip x).2.2 _ hx
        revert this
        unfold Hex.specLowerDigit
        decide
      have q1 : (34 : UInt8) ∉ ascii "5820" := by decide +kernel
      have q2 : (34 : UInt8) ∉ ascii "82" := by decide +kernel
      have c1 := (C18_fields_recoverable _ _ _ _ _ _ (by decide +kernel) (by decide +kernel)
        (by simp only [List.mem_append, not_or]; exact ⟨q1, hexq _⟩) (by decide +kernel) (by decide +kernel)
        (by simp only [List.mem_append, not_or]; exact ⟨q1, hexq _⟩) (Option.some.inj a1)).2.2
      have c2 := (C18_fields_recoverable _ _ _ _ _ _ (by decide +kernel) (by decide +kernel)
        (by simp only [List.mem_append, not_or]; exact ⟨⟨⟨q2, hexq _⟩, q1⟩, hexq _⟩) (by decide +kernel) (by decide +kernel)
        (by simp only [List.mem_append, not_or]; exact ⟨⟨⟨q2, hexq _⟩, q1⟩, hexq _⟩) (Option.some.inj a2)).2.2
      have d1 := hex_inj (List.append_cancel_left c1)
      have d2 := hex_inj (List.append_inj_right' c2 (by rw [hex_length, hex_length, hc₀.sizes.2.1, hw.sizes.2.1]))
      exact hne (d2.trans d1.symm)

/-- The hypotheses are met: the program's own phrase, killed when it has just opened its first file. -/
example : ∃ fs', Killed (fun _ => ⟨true, 100, 5000⟩) (prog toyEnv
    (Ed25519.sigHash toyCurve Bip32.toyPrims.sha512 (fun x => (x ++ List.replicate 32 0).take 32) (by simp)) phrase
    (List.replicate 32 3) (List.replicate 32 4)) (fun _ => some [7]) fs' ∧ fs' "./cold.skey" = some [] := by
  obtain ⟨mn, h, -⟩ := C95_phrase
  obtain ⟨v, -, -, h1⟩ := C105_mixture toyEnv (Ed25519.sigHash toyCurve Bip32.toyPrims.sha512 (fun x => (x ++ List.replicate 32 0).take 32) (by simp))
    (fun _ => ⟨true, 100, 5000⟩) phrase (List.replicate 32 3) (List.replicate 32 4) mn h rfl rfl
    (fun k msg hot _ _ _ => by
      have : toyEnv.P.sha512 (k.key.drop 32 ++ msg) = Bip32.toyPrims.sha512 [] := rfl
      rw [this]; decide +kernel) (fun n _ => ⟨rfl, by show 2000 ≤ 5000; omega⟩)
  exact (h1 _).1

end Cardano.PoolKeys
