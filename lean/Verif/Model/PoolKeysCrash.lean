import Verif.Model.PoolKeysProgram

/-! # The example program `generate_stake_pool_keys`, killed at any moment

The same statements as `PoolKeys.main` (`examples/generate_stake_pool_keys/main.cpp:26-70`), as a list of
writes, so that besides running it to the end (`Prog.run`, proved equal to `main` by `run_prog` in
`Props/PoolKeysCrash.lean`) one can say what the directory may be when the process is killed.

Simplification: what the process has handed to the operating system is in the directory (the process is
killed, the machine goes on). -/

namespace Cardano.PoolKeys

open Cardano Cardano.Ed

/-- A program that writes files one after the other. -/
inductive Prog where
  /-- the end of `main`, or an exception that leaves it -/
  | stop (r : Out Bytes)
  /-- one `saveToFile` call and the rest -/
  | save (name : String) (w : Util.Disk → Bytes → Bytes × Out Unit) (rest : Prog)

/-- A computation without files, and the rest. -/
def Prog.call {α : Type} (x : Out α) (rest : α → Prog) : Prog :=
  match x with
  | .ok a => rest a
  | .throw e => .stop (.throw e)
  | .ub => .stop .ub

/-- The program run to its end. -/
def Prog.run (dk : String → Util.Disk) : Prog → Dir → Dir × Out Bytes
  | .stop r => fun fs => (fs, r)
  | .save name w rest => PoolKeys.save dk name w (rest.run dk)

/-- `Killed dk p fs fs'`: the directory may be `fs'` when the program `p`, started in the directory `fs`, is
killed at some moment.  While a file is being written (src/util.cpp:28-61: opening truncates it, then bytes
reach it from the front) it holds an initial part of what the call writes. -/
inductive Killed (dk : String → Util.Disk) : Prog → Dir → Dir → Prop
  | now (p : Prog) (fs : Dir) : Killed dk p fs fs
  | writing (name : String) (w : Util.Disk → Bytes → Bytes × Out Unit) (rest : Prog) (fs : Dir) (f : Bytes) :
      (dk name).openable = true → f <+: (w (dk name) ((fs name).getD [])).1 → Killed dk (.save name w rest) fs (fs.set name f)
  | later (name : String) (w : Util.Disk → Bytes → Bytes × Out Unit) (rest : Prog) (fs fs' : Dir) (c : Bytes) :
      (dk name).openable = true → w (dk name) ((fs name).getD []) = (c, .ok ()) → Killed dk rest (fs.set name c) fs' →
      Killed dk (.save name w rest) fs fs'

/-- `main` (examples/generate_stake_pool_keys/main.cpp:26-70), statement by statement as in `PoolKeys.main`. -/
def prog (E : Pool.Env) (S : SigHash) (text kesSeed vrfRandom : Bytes) : Prog :=
  .call (Mnemonic.ofString .english text) fun mn =>
  .call (Pool.fromMnemonic E mn) fun coldSkey =>
  .call (Pool.xskeyVkey E coldSkey) fun coldVkey =>
  .call (Bech32.encode (ascii "pool") (Pool.poolId E coldVkey)) fun printed =>
  .save "./cold.skey" (Pool.saveXskey · · coldSkey) <|
  .save "./cold.vkey" (Pool.saveVkey · · coldVkey) <|
  .call (do let (s, _, _) ← Kes.keygen S 6 kesSeed; Pool.kesGenerate s) fun kesSkey =>
  .call (Kes.publicKey S 5 kesSkey) fun kesVkey =>
  .save "./kes.skey" (Pool.saveKesSkey · · kesSkey) <|
  .save "./kes.vkey" (Pool.saveKesVkey · · kesVkey) <|
  .save "./cold.counter" (Pool.counterSave · · 0 coldVkey) <|
  .call (Pool.generateX E kesVkey 0 1 coldSkey) fun opCert =>
  .save "./pool.cert" (Pool.OpCert.save · · opCert coldVkey) <|
  let vrfSkey := Vrf.generate E.C E.P.sha512 vrfRandom
  .save "./vrf.skey" (Pool.saveVrfSkey · · vrfSkey) <|
  .save "./vrf.vkey" (Pool.saveVrfVkey · · (Vrf.publicKey vrfSkey)) <|
  .stop (.ok printed)

end Cardano.PoolKeys
