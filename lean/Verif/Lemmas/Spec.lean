import Verif.Spec.Codec
import Verif.Lemmas.Consensus

/-!
# From the codec laws to the specifications
-/

namespace Verif

open Dec

variable {v : Ver} {α : Type} [Codec v α]

theorem roundTrips [Fits α] [Lawful v α] : RoundTrips v α :=
  fun lim a rest h => (Lawful.reads lim a h).rt rest

theorem selfDelimiting [Fits α] [Lawful v α] : SelfDelimiting v α := by
  intro lim a b x y ha hb h
  have h1 := (Lawful.reads (v := v) lim a ha).rt x
  rw [h, (Lawful.reads (v := v) lim b hb).rt y] at h1
  simp at h1
  exact ⟨h1.1.symm, h1.2.symm⟩

theorem truncationFails [Fits α] [Lawful v α] : TruncationFails v α :=
  fun lim a p s h he hs => (Lawful.reads lim a h).trunc p s he.symm hs

theorem decodesLocally [Fits α] [Lawful v α] : DecodesLocally v α :=
  fun lim bs rest a h => Lawful.loc lim bs a rest h

theorem decodesCanonically [Canonical v α] : DecodesCanonically v α :=
  fun lim bs rest a h => Canonical.canon lim bs a rest h

theorem reencodesStably [Fits α] [Lawful v α] [Closed v α] : ReencodesStably v α :=
  fun lim bs rest other a h => (Lawful.reads lim a (Closed.closed lim bs a rest h)).rt other

theorem neverPanics [Safe v α] : NeverPanics v α :=
  fun lim bs h1 h2 => (Safe.safe lim bs h1 h2).1

theorem neverPanicsAnywhere [Total v α] : NeverPanicsAnywhere v α :=
  fun lim bs => Total.total lim bs

end Verif
