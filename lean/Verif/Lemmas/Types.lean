import Verif.Model.Types
import Verif.Lemmas.Codec

/-!
# Laws of the shared and v1 types

Derived structs get theirs by instance resolution; only `SiafundOutput` is hand-written.
-/

namespace Verif

open Dec

variable {v : Ver}

theorem Currency.toU64?_ofU64 (x : U64) : (Currency.ofU64 x).toU64? = some x := by
  have h : (x.setWidth 128).toNat = x.toNat := by
    rw [BitVec.toNat_setWidth]; exact Nat.mod_eq_of_lt (Nat.lt_trans x.isLt (by decide))
  unfold Currency.toU64? Currency.ofU64
  simp only [h, x.isLt, if_true, Option.some.injEq]
  apply BitVec.eq_of_toNat_eq
  rw [BitVec.toNat_setWidth, h]; exact Nat.mod_eq_of_lt x.isLt

theorem dec_siafundOutput_v1 : (dec .v1 : Dec SiafundOutput) = ((dec .v1 : Dec Currency) >>= fun c =>
    match c.toU64? with
    | none => Dec.fail .custom
    | some value => (dec .v1 : Dec Address) >>= fun address => (dec .v1 : Dec Currency) >>= fun _ =>
        pure ⟨value, address⟩) := rfl

theorem dec_siafundOutput_v2 : (dec .v2 : Dec SiafundOutput) = ((dec .v2 : Dec U64) >>= fun value =>
    (dec .v2 : Dec Address) >>= fun address => pure ⟨value, address⟩) := rfl

theorem enc_siafundOutput_v1 (x : SiafundOutput) : enc .v1 x =
    enc .v1 (Currency.ofU64 x.value) ++ (enc .v1 x.address ++ enc .v1 (Currency.mk 0)) := rfl

theorem enc_siafundOutput_v2 (x : SiafundOutput) : enc .v2 x = enc .v2 x.value ++ enc .v2 x.address := rfl

instance : Lawful v SiafundOutput where
  reads lim a _ := by
    cases v with
    | v1 =>
      rw [enc_siafundOutput_v1, dec_siafundOutput_v1]
      refine (Lawful.reads lim _ trivial).bind ?_
      rw [Currency.toU64?_ofU64]
      refine (Lawful.reads lim _ trivial).bind ?_
      exact (Lawful.reads lim _ trivial).map fun _ => rfl
    | v2 =>
      rw [enc_siafundOutput_v2, dec_siafundOutput_v2]
      refine (Lawful.reads lim _ trivial).bind ?_
      exact (Lawful.reads lim _ trivial).map fun _ => rfl
  loc := by
    cases v with
    | v1 =>
      rw [dec_siafundOutput_v1]
      refine Lawful.loc.bind fun c => ?_
      cases c.toU64? with
      | none => exact Local.fail _
      | some x => exact Lawful.loc.bind fun _ => Lawful.loc.bind fun _ => Local.pure _
    | v2 => exact Lawful.loc.bind fun _ => Lawful.loc.bind fun _ => Local.pure _

instance : Total v SiafundOutput where
  total := by
    cases v with
    | v1 =>
      rw [dec_siafundOutput_v1]
      refine Total.total.bind fun c => ?_
      cases c.toU64? with
      | none => exact NoPanic.fail _
      | some x => exact Total.total.bind fun _ => Total.total.bind fun _ => NoPanic.pure _
    | v2 => exact Total.total.bind fun _ => Total.total.bind fun _ => NoPanic.pure _

instance : Safe v SiafundOutput := Total.toSafe

instance : Canonical .v2 SiafundOutput where
  canon lim bs a r h := by
    rw [dec_siafundOutput_v2] at h
    obtain ⟨x, r1, h1, h2⟩ := bind_eq_ok.mp h
    obtain ⟨y, r2, h3, h4⟩ := bind_eq_ok.mp h2
    simp at h4
    rw [Canonical.canon _ _ _ _ h1, Canonical.canon _ _ _ _ h3, ← h4.1, ← h4.2, enc_siafundOutput_v2,
      List.append_assoc]


instance : Lawful v ChainIndex := inferInstance
instance : Lawful v SiacoinOutput := inferInstance
instance : Lawful v StateElement := inferInstance
instance : Lawful v UnlockKey := inferInstance
instance : Lawful v UnlockConditions := inferInstance
instance : Lawful v V1.SiacoinInput := inferInstance
instance : Lawful v V1.SiafundInput := inferInstance
instance : Lawful v V1.FileContract := inferInstance
instance : Lawful v V1.FileContractRevision := inferInstance
instance : Lawful v V1.StorageProof := inferInstance
instance : Lawful v V1.CoveredFields := inferInstance
instance : Lawful v V1.TransactionSignature := inferInstance
instance : Lawful v V1.Transaction := inferInstance
instance : Lawful v Block := inferInstance

instance : Safe v ChainIndex := inferInstance
instance : Safe v SiacoinOutput := inferInstance
instance : Safe v StateElement := inferInstance
instance : Safe v UnlockKey := inferInstance
instance : Safe v UnlockConditions := inferInstance
instance : Safe v V1.SiacoinInput := inferInstance
instance : Safe v V1.SiafundInput := inferInstance
instance : Safe v V1.FileContract := inferInstance
instance : Safe v V1.FileContractRevision := inferInstance
instance : Safe v V1.StorageProof := inferInstance
instance : Safe v V1.CoveredFields := inferInstance
instance : Safe v V1.TransactionSignature := inferInstance
instance : Safe v V1.Transaction := inferInstance

instance : Canonical v ChainIndex := inferInstance
instance : Canonical .v2 SiacoinOutput := inferInstance
instance : Canonical v StateElement := inferInstance
instance : Canonical v UnlockKey := inferInstance
instance : Canonical v UnlockConditions := inferInstance
instance : Canonical v V1.SiacoinInput := inferInstance
instance : Canonical v V1.SiafundInput := inferInstance
instance : Canonical .v2 V1.FileContract := inferInstance
instance : Canonical .v2 V1.FileContractRevision := inferInstance
instance : Canonical v V1.StorageProof := inferInstance
instance : Canonical v V1.CoveredFields := inferInstance
instance : Canonical v V1.TransactionSignature := inferInstance
instance : Canonical .v2 V1.Transaction := inferInstance

end Verif
