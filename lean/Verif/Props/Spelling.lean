import Verif.Lemmas.Spelling
import Verif.Props.Samples

/-!
# What exactly is read as a value (C81)
-/

namespace Verif

open Spelling

/-- C81: a v1 amount is read from at most sixteen digits, leading zeros allowed, and an output from an amount and an address; the
last amount of a siafund output may be anything. -/
theorem C81_v1_outputs (lim : Lim) :
    ReadFrom lim (dec .v1 : Dec Currency) (fun c => amount c.val.toNat) ∧
    ReadFrom lim (dec .v1 : Dec SiacoinOutput) siacoinOutput ∧
    ReadFrom lim (dec .v1 : Dec SiafundOutput) siafundOutput :=
  ⟨readFrom_currency, readFrom_siacoinOutput, readFrom_siafundOutput⟩

/-- C81: a v1 contract, revision, transaction or block is read from the bytes of its layout in which any amount may be spelled
in another way, and from nothing else. -/
theorem C81_v1 (lim : Lim) :
    ReadFrom lim (dec .v1 : Dec V1.FileContract) (fileContract lim) ∧
    ReadFrom lim (dec .v1 : Dec V1.FileContractRevision) (fileContractRevision lim) ∧
    ReadFrom lim (dec .v1 : Dec V1.Transaction) (v1Transaction lim) ∧
    ReadFrom lim (dec .v1 : Dec Block) (block lim) :=
  ⟨readFrom_fileContract, readFrom_fileContractRevision, readFrom_v1Transaction, readFrom_block⟩

/-- C81: a v2 transaction is read from the byte 2, any bit field and the fields it announces. -/
theorem C81_v2_transaction (lim : Lim) : ReadFrom lim (dec .v2 : Dec V2.Transaction) (v2Transaction lim) :=
  readFrom_v2Transaction

/-- C81: in v1, of all the byte strings from which a value is read, the one that is written is the only shortest. -/
theorem C81_v1_shortest :
    WritesShortest .v1 Currency ∧ WritesShortest .v1 SiacoinOutput ∧ WritesShortest .v1 SiafundOutput ∧
    WritesShortest .v1 V1.FileContract ∧ WritesShortest .v1 V1.FileContractRevision ∧ WritesShortest .v1 V1.Transaction ∧
    WritesShortest .v1 Block :=
  ⟨writesShortest (fun _ => readFrom_currency) fun _ => short_currency,
    writesShortest (fun _ => readFrom_siacoinOutput) fun _ => short_siacoinOutput,
    writesShortest (fun _ => readFrom_siafundOutput) fun _ => short_siafundOutput,
    writesShortest (fun _ => readFrom_fileContract) fun _ => short_fileContract,
    writesShortest (fun _ => readFrom_fileContractRevision) fun _ => short_fileContractRevision,
    writesShortest (fun _ => readFrom_v1Transaction) fun _ => short_v1Transaction,
    writesShortest (fun _ => readFrom_block) fun _ => short_block⟩

/-- C81: a v2 transaction is never written longer than it was read. -/
theorem C81_v2_short : WritesShort .v2 V2.Transaction := by
  intro lim bs rest t hd
  obtain ⟨used, rfl, bits, -, h⟩ := (readFrom_v2Transaction _ _ _).mp hd
  have := (short_v2Transaction h).1
  simp only [List.length_append]
  omega

/-- C81: if the bit field has no bits beyond the eleven that mean something, a v2 transaction that is not written as it was
read is written shorter. -/
theorem C81_v2_shortest (lim : Lim) (bits : Nat) (hb : bits < 2 ^ 11) (bs rest : List UInt8) (t : V2.Transaction)
    (hd : (dec .v2 : Dec V2.Transaction) lim (2 :: le64 bits ++ bs) = .ok (t, rest)) :
    2 :: le64 bits ++ bs = enc .v2 t ++ rest ∨ (enc .v2 t ++ rest).length < (2 :: le64 bits ++ bs).length := by
  obtain ⟨used, hu, bits', hb', h⟩ := (readFrom_v2Transaction _ _ _).mp hd
  have hs := (short_v2Transaction h).2
  obtain ⟨_, _, rfl, rfl, _, u, rfl, rfl, -⟩ := h
  have he : le64 bits = le64 bits' := by
    simp only [List.cons_append, List.nil_append, List.append_assoc, List.cons.injEq, true_and] at hu
    exact (List.append_inj hu (by simp)).1
  have : bits = bits' := by
    have h1 := leVal_leBytes_of_lt (n := 8) (x := bits) (by omega)
    have h2 := leVal_leBytes_of_lt (n := 8) (x := bits') (by omega)
    rw [← le64_eq] at h1 h2
    rw [← h1, ← h2, he]
  subst this
  rw [hu]
  exact short_append (hs hb) (.inl rfl)

/-- C81 does not hold without that: a bit field with an unknown bit is read and written back in other bytes of the same
length. -/
theorem C81_v2_not_shortest : ¬ WritesShortest .v2 V2.Transaction := by
  intro h
  have := h Sample.lim (2 :: le64 (2 ^ 11)) [] ⟨[], [], [], [], [], [], [], [], [], none, ⟨0⟩⟩ rfl
  revert this
  decide +kernel

example : (dec .v1 : Dec SiafundOutput) Sample.lim
    (le64 3 ++ [0, 1, 2] ++ List.replicate 32 7 ++ le64 1 ++ [9] ++ [5]) = .ok (⟨258, ⟨List.replicate 32 7, rfl⟩⟩, [5]) ∧
    enc .v1 (⟨258, ⟨List.replicate 32 7, rfl⟩⟩ : SiafundOutput) = le64 2 ++ [1, 2] ++ List.replicate 32 7 ++ le64 0 := by
  decide +kernel
example : (dec .v2 : Dec V2.Transaction) Sample.lim (2 :: le64 3 ++ le64 0 ++ le64 0) =
    .ok (⟨[], [], [], [], [], [], [], [], [], none, ⟨0⟩⟩, []) ∧
    (enc .v2 (⟨[], [], [], [], [], [], [], [], [], none, ⟨0⟩⟩ : V2.Transaction)).length = 9 := ⟨rfl, by decide +kernel⟩

end Verif
