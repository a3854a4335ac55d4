import Verif.Props.PoolKeysProgram

/-! # C18, C95: devices that run out of space -/

namespace Cardano.Util

open Cardano

theorem putChunks_take (dk : Disk) : ∀ cs file pending, file.length ≤ dk.space →
    ((putChunks dk cs file pending).2 = .throw .runtimeError ∧ dk.space < (file ++ pending ++ cs.flatten).length ∧
      (putChunks dk cs file pending).1 = (file ++ pending ++ cs.flatten).take dk.space) ∨
    ∃ p, (putChunks dk cs file pending).2 = .ok p ∧ (putChunks dk cs file pending).1.length ≤ dk.space ∧
      (putChunks dk cs file pending).1 ++ p = file ++ pending ++ cs.flatten := by
  intro cs
  induction cs with
  | nil => intro file pending h; exact .inr ⟨pending, rfl, h, by simp [putChunks]⟩
  | cons c cs ih =>
    intro file pending h
    rw [putChunks]
    split
    · simpa [List.append_assoc] using ih file (pending ++ c) h
    · dsimp only
      have hm : max dk.space file.length = dk.space := Nat.max_eq_left h
      split
      · rename_i hf
        have hl : (flush dk file (pending ++ c)).1.length ≤ dk.space := by simp [flush, hm]
        have := ih (flush dk file (pending ++ c)).1 [] hl
        rw [flush_all dk file _ hf] at this ⊢
        simpa [List.append_assoc] using this
      · rename_i hf
        simp only [flush, hm, decide_eq_true_eq, Nat.not_le] at hf ⊢
        refine .inl ⟨trivial, ?_, ?_⟩
        · simp only [List.length_append, List.flatten_cons] at hf ⊢; omega
        · rw [List.flatten_cons, show file ++ pending ++ (c ++ cs.flatten) = (file ++ (pending ++ c)) ++ cs.flatten by simp,
            List.take_append_of_le_length (l₁ := file ++ (pending ++ c)) (by omega)]

/-- **C18** Exactly what a file holds after a call: as much of the document as the device takes.  An exception means that the
document is not complete, but not the other way round: if the document fits in the stream's buffer, the call returns
normally however little has been written. -/
theorem C18_device_full (dk : Disk) (old t d c : Bytes) (ho : dk.openable = true) :
    (writeEnvelope dk old t d c).1 = (specEnvelope t d c).take dk.space ∧
    ((writeEnvelope dk old t d c).2 = .ok () ∨
      (writeEnvelope dk old t d c).2 = .throw .runtimeError ∧ dk.space < (specEnvelope t d c).length) ∧
    ((specEnvelope t d c).length ≤ dk.bufCap → (writeEnvelope dk old t d c).2 = .ok ()) := by
  have h := putChunks_take dk (envelopeChunks t d c) [] [] (Nat.zero_le _)
  rw [chunks_flatten] at h
  simp only [List.nil_append] at h
  have key : (writeEnvelope dk old t d c).1 = (specEnvelope t d c).take dk.space ∧
      ((writeEnvelope dk old t d c).2 = .ok () ∨
        (writeEnvelope dk old t d c).2 = .throw .runtimeError ∧ dk.space < (specEnvelope t d c).length) := by
    unfold writeEnvelope
    simp only [ho, Bool.not_true, Bool.false_eq_true, if_false]
    rcases hp : putChunks dk (envelopeChunks t d c) [] [] with ⟨file, r⟩
    rw [hp] at h
    rcases h with ⟨rfl, h2, h3⟩ | ⟨p, rfl, h2, h3⟩
    · exact ⟨h3, .inr ⟨rfl, h2⟩⟩
    · refine ⟨?_, .inl rfl⟩
      simp only [flush]
      simp only at h2 h3
      rw [Nat.max_eq_left h2, h3]
  refine ⟨key.1, key.2, fun hb => ?_⟩
  rcases key.2 with h | ⟨_, hs⟩
  · exact h
  · exact (C18_silent_truncation dk old t d c ho hb hs).1

/-- A device with room for ten bytes. -/
example : (writeEnvelope ⟨true, 8191, 10⟩ [] [65] [66] [67]) = ((specEnvelope [65] [66] [67]).take 10, .ok ()) := by decide +kernel

end Cardano.Util

namespace Cardano.PoolKeys

open Cardano Cardano.Ed Cardano.Util Cardano.Pool Cardano.Bip173 Cardano.Spec.Bip32

/-- Files written one after the other. -/
def series (dk : String → Disk) (ws : List (String × (Disk → Bytes → Bytes × Out Unit))) (printed : Bytes) : Dir → Dir × Out Bytes :=
  ws.foldr (fun w rest => save dk w.1 w.2 rest) (fun fs => (fs, .ok printed))

/-- A directory entry after writing a document to a device. -/
def Holds (dk : Disk) (doc : Bytes) (now : Option Bytes) : Prop := dk.openable = true ∧ now = some (doc.take dk.space)

theorem series_run (dk : String → Disk) (content : String → Bytes) (printed : Bytes) :
    ∀ (ws : List (String × (Disk → Bytes → Bytes × Out Unit))) (fs : Dir), (ws.map (·.1)).Nodup →
    (∀ w ∈ ws, ∃ t d c, w.2 = (writeEnvelope · · t d c) ∧ content w.1 = specEnvelope t d c) →
    ∃ fs' r, series dk ws printed fs = (fs', r) ∧ (∀ n, n ∉ ws.map (·.1) → fs' n = fs n) ∧
      ((r = .ok printed ∧ ∀ n ∈ ws.map (·.1), Holds (dk n) (content n) (fs' n)) ∨
       (r = .throw .runtimeError ∧ ∃ i n, (ws.map (·.1))[i]? = some n ∧
        (∀ m ∈ (ws.map (·.1)).take i, Holds (dk m) (content m) (fs' m)) ∧ (∀ m ∈ (ws.map (·.1)).drop (i + 1), fs' m = fs m) ∧
        ((dk n).openable = false ∧ fs' n = fs n ∨
          Holds (dk n) (content n) (fs' n) ∧ (dk n).space < (content n).length ∧ (dk n).bufCap < (content n).length))) := by
  intro ws
  induction ws with
  | nil => intro fs _ _; exact ⟨fs, _, rfl, fun _ _ => rfl, .inl ⟨rfl, by simp⟩⟩
  | cons w ws ih =>
    intro fs hnd hw
    obtain ⟨t, d, c, hwe, hc⟩ := hw w (by simp)
    rw [List.map_cons, List.nodup_cons] at hnd
    have hs : series dk (w :: ws) printed fs = save dk w.1 w.2 (series dk ws printed) fs := rfl
    rw [hs]
    cases ho : (dk w.1).openable with
    | false =>
      have hb := (C18_envelope_partial (dk w.1) ((fs w.1).getD []) t d c).2.2 ho
      refine ⟨fs, _, save_bad dk w.1 w.2 _ fs _ _ ho (by rw [hwe]; exact hb), fun _ _ => rfl, .inr ⟨rfl, 0, w.1, by simp, by simp, ?_, .inl ⟨ho, rfl⟩⟩⟩
      intro m _; rfl
    | true =>
      obtain ⟨h1, h2, h3⟩ := C18_device_full (dk w.1) ((fs w.1).getD []) t d c ho
      rw [← hc] at h1 h2 h3
      rcases h2 with h2 | ⟨h2, h2s⟩
      · rw [save_good dk w.1 w.2 _ fs ((content w.1).take (dk w.1).space) ho (by rw [hwe]; exact Prod.ext h1 h2)]
        obtain ⟨fs', r, e1, e2, e3⟩ := ih (fs.set w.1 ((content w.1).take (dk w.1).space)) hnd.2 (fun w' h => hw w' (by simp [h]))
        have hself : Holds (dk w.1) (content w.1) (fs' w.1) := ⟨ho, by rw [e2 _ hnd.1]; simp [Dir.set]⟩
        have hother : ∀ m, m ≠ w.1 → (fs.set w.1 ((content w.1).take (dk w.1).space)) m = fs m := by
          intro m hm; simp [Dir.set, hm]
        refine ⟨fs', r, e1, ?_, ?_⟩
        · intro n hn
          simp only [List.map_cons, List.mem_cons, not_or] at hn
          rw [e2 n hn.2, hother n hn.1]
        · rcases e3 with ⟨rfl, e3⟩ | ⟨rfl, i, n, k1, k2, k3, k4⟩
          · refine .inl ⟨rfl, ?_⟩
            intro n hn
            rcases List.mem_cons.mp hn with rfl | hn
            · exact hself
            · exact e3 n hn
          · refine .inr ⟨rfl, i + 1, n, by simpa using k1, ?_, ?_, ?_⟩
            · intro m hm
              simp only [List.map_cons, List.take_succ_cons, List.mem_cons] at hm
              rcases hm with rfl | hm
              · exact hself
              · exact k2 m hm
            · intro m hm
              simp only [List.map_cons, List.drop_succ_cons] at hm
              rw [k3 m hm, hother m]
              rintro rfl
              exact hnd.1 (List.mem_of_mem_drop hm)
            · rcases k4 with ⟨k4, k5⟩ | k4
              · refine .inl ⟨k4, ?_⟩
                rw [k5, hother n]
                rintro rfl
                exact hnd.1 (List.mem_of_getElem? k1)
              · exact .inr k4
      · have hsv : save dk w.1 w.2 (series dk ws printed) fs = (fs.set w.1 ((content w.1).take (dk w.1).space), .throw .runtimeError) := by
          have hx : w.2 (dk w.1) ((fs w.1).getD []) = ((content w.1).take (dk w.1).space, .throw .runtimeError) := by
            rw [hwe]; exact Prod.ext h1 h2
          unfold save; rw [ho, hx]
        refine ⟨_, _, hsv, ?_, .inr ⟨rfl, 0, w.1, by simp, by simp, ?_, .inr ⟨⟨ho, by simp [Dir.set]⟩, h2s, ?_⟩⟩⟩
        · intro n hn
          simp only [List.map_cons, List.mem_cons, not_or] at hn
          simp [Dir.set, hn.1]
        · intro m hm
          simp only [List.map_cons, List.drop_succ_cons, List.drop_zero] at hm
          have : m ≠ w.1 := by rintro rfl; exact hnd.1 hm
          simp [Dir.set, this]
        · apply Nat.lt_of_not_le
          intro hb
          have := h3 hb
          rw [h2] at this
          cases this

/-- The eight calls. -/
def writers (v : Values) : List (String × (Disk → Bytes → Bytes × Out Unit)) :=
  [("./cold.skey", (saveXskey · · v.coldSkey)), ("./cold.vkey", (saveVkey · · v.coldVkey)), ("./kes.skey", (saveKesSkey · · v.kesSkey)),
   ("./kes.vkey", (saveKesVkey · · v.kesVkey)), ("./cold.counter", (counterSave · · 0 v.coldVkey)),
   ("./pool.cert", (OpCert.save · · v.cert v.coldVkey)), ("./vrf.skey", (saveVrfSkey · · v.vrfSkey)), ("./vrf.vkey", (saveVrfVkey · · v.vrfVkey))]

theorem writers_envelope (E : Env) (S : SigHash) (kesSeed : Bytes) (v : Values) (h : Consistent E S kesSeed v v.cert.serialize) (hc : v.cert.WF) :
    ∀ w ∈ writers v, ∃ t d c, w.2 = (writeEnvelope · · t d c) ∧ v.content v.cert.serialize w.1 = specEnvelope t d c := by
  have key : ∀ (w : String × (Disk → Bytes → Bytes × Out Unit)), (∃ t d c, w.2 = (writeEnvelope · · t d c)) →
      (∀ dk old, Good dk → w.2 dk old = (v.content v.cert.serialize w.1, .ok ())) →
      ∃ t d c, w.2 = (writeEnvelope · · t d c) ∧ v.content v.cert.serialize w.1 = specEnvelope t d c := by
    rintro w ⟨t, d, c, e⟩ hg
    refine ⟨t, d, c, e, ?_⟩
    have h1 := hg ⟨true, 0, 2000 + (specEnvelope t d c).length⟩ [] ⟨rfl, Nat.le_add_right _ _⟩
    rw [e] at h1
    have h2 := (C18_envelope_partial ⟨true, 0, 2000 + (specEnvelope t d c).length⟩ [] t d c).2.1 rfl (Nat.le_add_left _ _)
    exact (Prod.mk.inj (h1.symm.trans h2)).1
  have C := fun dk old hg => contents E S kesSeed v h hc dk old hg
  intro w hw
  simp only [writers, List.mem_cons, List.not_mem_nil, or_false] at hw
  rcases hw with rfl | rfl | rfl | rfl | rfl | rfl | rfl | rfl
  · exact key _ ⟨_, _, _, rfl⟩ fun dk old hg => (C dk old hg).1
  · exact key _ ⟨_, _, _, rfl⟩ fun dk old hg => (C dk old hg).2.1
  · exact key _ ⟨_, _, _, rfl⟩ fun dk old hg => (C dk old hg).2.2.1
  · exact key _ ⟨_, _, _, rfl⟩ fun dk old hg => (C dk old hg).2.2.2.1
  · exact key _ ⟨_, _, _, rfl⟩ fun dk old hg => (C dk old hg).2.2.2.2.1
  · exact key _ ⟨_, _, _, rfl⟩ fun dk old hg => (C dk old hg).2.2.2.2.2.1
  · exact key _ ⟨_, _, _, rfl⟩ fun dk old hg => (C dk old hg).2.2.2.2.2.2.1
  · exact key _ ⟨_, _, _, rfl⟩ fun dk old hg => (C dk old hg).2.2.2.2.2.2.2

/-- **C95** The program on any devices.  It ends normally or with `runtime_error`.  If normally, all files were opened and each
holds as much of its document as the device took: complete if there was room, and cut, without notice, if there was not.
If it throws, there is a file at which it stopped: the ones before were opened and hold as much as their device took, the ones after
are as before, and the file itself could not be opened (and is as before) or is incomplete.  It never stops at a document that
fits in the stream's buffer: with the usual 8191 bytes a full disk is never reported. -/
theorem C95_any_device (E : Env) (S : SigHash) (dk : String → Disk) (text kesSeed vrfRandom : Bytes)
    (mn : Mnemonic.Mn) (hmn : Mnemonic.ofString .english text = .ok mn) (hk : kesSeed.length = 32) (hv : vrfRandom.length = 32)
    (hnonce : ∀ k msg hot, fromMnemonic E mn = .ok k → hot.length = 32 → SignableBytes hot 0 1 msg →
      ¬ ellL ∣ leNat (E.P.sha512 (k.key.drop 32 ++ msg))) (fs : Dir) :
    ∃ v b fs' r, fromMnemonic E mn = .ok v.coldSkey ∧ Consistent E S kesSeed v b ∧ main E S dk text kesSeed vrfRandom fs = (fs', r) ∧
      (∀ n, n ∉ names → fs' n = fs n) ∧
      ((r = .ok v.printed ∧ ∀ n ∈ names, Holds (dk n) (v.content b n) (fs' n)) ∨
       (r = .throw .runtimeError ∧ ∃ i n, names[i]? = some n ∧
        (∀ m ∈ names.take i, Holds (dk m) (v.content b m) (fs' m)) ∧ (∀ m ∈ names.drop (i + 1), fs' m = fs m) ∧
        ((dk n).openable = false ∧ fs' n = fs n ∨
          Holds (dk n) (v.content b n) (fs' n) ∧ (dk n).space < (v.content b n).length ∧ (dk n).bufCap < (v.content b n).length))) := by
  obtain ⟨v, h1, h2, h3⟩ := computes E S text kesSeed vrfRandom mn hmn hk hv hnonce
  obtain ⟨mn', e1, e2⟩ := h1.mn
  obtain rfl : mn = mn' := Out.ok.inj (hmn.symm.trans e1)
  obtain ⟨fs', r, g1, g2, g3⟩ := series_run dk (v.content v.cert.serialize) v.printed (writers v) fs (show names.Nodup by decide) (writers_envelope E S kesSeed v h2 h3)
  exact ⟨v, _, fs', r, e2, h2, by rw [main_eq E S dk _ _ _ v h1]; exact g1, g2, g3⟩

/-- **C95** The finding in one line: all files can be opened, the disk is full (no byte is stored), and the program ends normally. -/
theorem C95_full_disk_unreported (E : Env) (S : SigHash) (dk : String → Disk) (text kesSeed vrfRandom : Bytes)
    (mn : Mnemonic.Mn) (hmn : Mnemonic.ofString .english text = .ok mn) (hk : kesSeed.length = 32) (hv : vrfRandom.length = 32)
    (hnonce : ∀ k msg hot, fromMnemonic E mn = .ok k → hot.length = 32 → SignableBytes hot 0 1 msg →
      ¬ ellL ∣ leNat (E.P.sha512 (k.key.drop 32 ++ msg))) (fs : Dir)
    (hd : ∀ n ∈ names, (dk n).openable = true ∧ 2000 ≤ (dk n).bufCap ∧ (dk n).space = 0) :
    ∃ fs' printed, main E S dk text kesSeed vrfRandom fs = (fs', .ok printed) ∧ ∀ n ∈ names, fs' n = some [] := by
  obtain ⟨v, h1, h2, h3⟩ := computes E S text kesSeed vrfRandom mn hmn hk hv hnonce
  obtain ⟨fs', r, g1, g2, g3⟩ := series_run dk (v.content v.cert.serialize) v.printed (writers v) fs (show names.Nodup by decide) (writers_envelope E S kesSeed v h2 h3)
  have hn : (writers v).map (·.1) = names := rfl
  rw [hn] at g2 g3
  rcases g3 with ⟨rfl, g3⟩ | ⟨-, i, n, k1, -, -, k4⟩
  · refine ⟨fs', _, by rw [main_eq E S dk _ _ _ v h1]; exact g1, fun n hn => ?_⟩
    rw [(g3 n hn).2, (hd n hn).2.2]; rfl
  · exfalso
    have hmem : n ∈ names := List.mem_of_getElem? k1
    obtain ⟨d1, d2, d3⟩ := hd n hmem
    rcases k4 with ⟨k4, -⟩ | ⟨-, -, k4⟩
    · rw [d1] at k4; cases k4
    · have hlen : ∀ n ∈ names, (v.content v.cert.serialize n).length ≤ 2000 := by
        have C := contents E S kesSeed v h2 h3 ⟨true, 2000, 2000⟩ [] ⟨rfl, Nat.le_refl _⟩
        have W := writers_envelope E S kesSeed v h2 h3
        intro n hn
        have : ∃ w ∈ writers v, w.1 = n := by
          have : n ∈ (writers v).map (·.1) := hn
          simpa using this
        obtain ⟨w, hw, rfl⟩ := this
        obtain ⟨t, d, c, e, f⟩ := W w hw
        have e1 := (C18_device_full ⟨true, 2000, 2000⟩ [] t d c rfl).1
        have e2 : (w.2 ⟨true, 2000, 2000⟩ []).1 = v.content v.cert.serialize w.1 := by
          simp only [writers, List.mem_cons, List.not_mem_nil, or_false] at hw
          rcases hw with rfl | rfl | rfl | rfl | rfl | rfl | rfl | rfl
          · exact congrArg Prod.fst C.1
          · exact congrArg Prod.fst C.2.1
          · exact congrArg Prod.fst C.2.2.1
          · exact congrArg Prod.fst C.2.2.2.1
          · exact congrArg Prod.fst C.2.2.2.2.1
          · exact congrArg Prod.fst C.2.2.2.2.2.1
          · exact congrArg Prod.fst C.2.2.2.2.2.2.1
          · exact congrArg Prod.fst C.2.2.2.2.2.2.2
        rw [← e2, e, e1, List.length_take]
        exact Nat.min_le_left _ _
      have := hlen n hmem
      omega

/-- The program's own phrase on a full disk. -/
example : ∃ fs' printed, main toyEnv (Ed25519.sigHash toyCurve Bip32.toyPrims.sha512 (fun x => (x ++ List.replicate 32 0).take 32) (by simp))
    (fun _ => ⟨true, 8191, 0⟩) phrase (List.replicate 32 3) (List.replicate 32 4) (fun _ => none) = (fs', .ok printed) ∧
    fs' "./cold.skey" = some [] := by
  obtain ⟨mn, h, -⟩ := C95_phrase
  obtain ⟨fs', pr, e1, e2⟩ := C95_full_disk_unreported toyEnv
    (Ed25519.sigHash toyCurve Bip32.toyPrims.sha512 (fun x => (x ++ List.replicate 32 0).take 32) (by simp))
    (fun _ => ⟨true, 8191, 0⟩) phrase (List.replicate 32 3) (List.replicate 32 4) mn h rfl rfl
    (fun k msg hot _ _ _ => by
      have : toyEnv.P.sha512 (k.key.drop 32 ++ msg) = Bip32.toyPrims.sha512 [] := rfl
      rw [this]; decide +kernel) (fun _ => none) (fun n _ => ⟨rfl, by show 2000 ≤ 8191; omega, rfl⟩)
  exact ⟨fs', pr, e1, e2 _ (by simp [names])⟩

end Cardano.PoolKeys
