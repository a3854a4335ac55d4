import Verif.Model.StakePool
import Verif.Model.Mnemonic

/-! # Model of the example program `examples/generate_stake_pool_keys/main.cpp`

Each file of the current directory has a content (none: it does not exist) and its own device behaviour (`Disk` of
`Model/Util`).  The random numbers behind the KES and VRF keys are arguments.  An exception ends the program. -/

namespace Cardano.PoolKeys

open Cardano Cardano.Ed

/-- The current directory. -/
abbrev Dir := String → Option Bytes

/-- Directory after a file has been written. -/
def Dir.set (fs : Dir) (name : String) (content : Bytes) : Dir := fun n => if n = name then some content else fs n

/-- One `saveToFile` call, and the rest of the program (model construct: sequencing, exceptions stop it).  A file that cannot be opened is not
created. -/
def save (dk : String → Util.Disk) (name : String) (w : Util.Disk → Bytes → Bytes × Out Unit) (rest : Dir → Dir × Out Bytes)
    (fs : Dir) : Dir × Out Bytes :=
  match (dk name).openable, w (dk name) ((fs name).getD []) with
  | false, (_, r) => (fs, r.bind fun _ => .ub)
  | true, (c, .ok ()) => rest (fs.set name c)
  | true, (c, .throw e) => (fs.set name c, .throw e)
  | true, (c, .ub) => (fs.set name c, .ub)

/-- A computation without files, and the rest of the program (model construct: sequencing). -/
def call {α : Type} (x : Out α) (rest : α → Dir → Dir × Out Bytes) (fs : Dir) : Dir × Out Bytes :=
  match x with
  | .ok a => rest a fs
  | .throw e => (fs, .throw e)
  | .ub => (fs, .ub)

/-- The phrase in the program (examples/generate_stake_pool_keys/main.cpp:28). -/
def phrase : Bytes := ascii
  "exercise club noble adult miracle awkward problem olympic puppy private goddess piano fatal fashion vacuum"

/-- `main` (examples/generate_stake_pool_keys/main.cpp:26-70): the directory and what has been printed (the pool id), or
the exception. -/
def main (E : Pool.Env) (S : SigHash) (dk : String → Util.Disk) (text kesSeed vrfRandom : Bytes) : Dir → Dir × Out Bytes :=
  call (Mnemonic.ofString .english text) fun mn =>
  call (Pool.fromMnemonic E mn) fun coldSkey =>
  call (Pool.xskeyVkey E coldSkey) fun coldVkey =>
  call (Bech32.encode (ascii "pool") (Pool.poolId E coldVkey)) fun printed =>
  save dk "./cold.skey" (Pool.saveXskey · · coldSkey) <|
  save dk "./cold.vkey" (Pool.saveVkey · · coldVkey) <|
  call (do let (s, _, _) ← Kes.keygen S 6 kesSeed; Pool.kesGenerate s) fun kesSkey =>
  call (Kes.publicKey S 5 kesSkey) fun kesVkey =>
  save dk "./kes.skey" (Pool.saveKesSkey · · kesSkey) <|
  save dk "./kes.vkey" (Pool.saveKesVkey · · kesVkey) <|
  save dk "./cold.counter" (Pool.counterSave · · 0 coldVkey) <|
  call (Pool.generateX E kesVkey 0 1 coldSkey) fun opCert =>
  save dk "./pool.cert" (Pool.OpCert.save · · opCert coldVkey) <|
  let vrfSkey := Vrf.generate E.C E.P.sha512 vrfRandom
  save dk "./vrf.skey" (Pool.saveVrfSkey · · vrfSkey) <|
  save dk "./vrf.vkey" (Pool.saveVrfVkey · · (Vrf.publicKey vrfSkey)) <|
  fun fs => (fs, .ok printed)

end Cardano.PoolKeys
