import Verif.Lemmas.Spec
import Verif.Lemmas.Bytes
import Verif.Spec.Hashing

/-!
# Encoders whose output can be split off a stream
-/

namespace Verif

variable {α β γ : Type}

/-- From a stream that starts with `e a` one can recover `f a` and the rest. -/
def Delim (P : α → Prop) (e : α → List UInt8) (f : α → β) : Prop :=
  ∀ a b x y, P a → P b → e a ++ x = e b ++ y → f a = f b ∧ x = y

/-- A machine with resources for everything. -/
def bigLim : Lim := ⟨2 ^ 64, 2 ^ 64⟩

theorem Delim.ofCodec {v : Ver} [Codec v α] [Fits α] [Lawful v α] : Delim (fits bigLim) (enc v : α → _) (fun a => a) :=
  fun a b x y ha hb h => selfDelimiting bigLim a b x y ha hb h

theorem Delim.mono {P Q : α → Prop} {e : α → List UInt8} {f : α → β} (h : Delim P e f) (hq : ∀ a, Q a → P a) : Delim Q e f :=
  fun a b x y ha hb he => h a b x y (hq a ha) (hq b hb) he

theorem Delim.comap {P : α → Prop} {e : α → List UInt8} {f : α → β} (h : Delim P e f) (g : γ → α) :
    Delim (fun c => P (g c)) (fun c => e (g c)) (fun c => f (g c)) :=
  fun a b x y ha hb he => h (g a) (g b) x y ha hb he

theorem Delim.seq {P : α → Prop} {Q : α → Prop} {e e' : α → List UInt8} {f : α → β} {g : α → γ}
    (h : Delim P e f) (h' : Delim Q e' g) :
    Delim (fun a => P a ∧ Q a) (fun a => e a ++ e' a) (fun a => (f a, g a)) := by
  intro a b x y ha hb he
  simp only [List.append_assoc] at he
  obtain ⟨h1, h2⟩ := h a b _ _ ha.1 hb.1 he
  obtain ⟨h3, h4⟩ := h' a b _ _ ha.2 hb.2 h2
  exact ⟨by simp only [h1, h3], h4⟩

/-- Constant output. -/
theorem Delim.const {c : List UInt8} : Delim (fun _ : α => True) (fun _ => c) (fun _ => ()) :=
  fun _ _ _ _ _ _ h => ⟨rfl, List.append_cancel_left h⟩

theorem Delim.inj {P : α → Prop} {e : α → List UInt8} {f : α → β} (h : Delim P e f) {a b : α} (ha : P a) (hb : P b)
    (he : e a = e b) : f a = f b :=
  (h a b [] [] ha hb (by rw [he])).1

theorem Delim.flatMap {P : α → Prop} {e : α → List UInt8} {f : α → β} (h : Delim P e f) :
    ∀ (l m : List α) (x y : List UInt8), l.length = m.length → (∀ a ∈ l, P a) → (∀ a ∈ m, P a) →
      l.flatMap e ++ x = m.flatMap e ++ y → l.map f = m.map f ∧ x = y
  | [], [], x, y, _, _, _, he => ⟨rfl, by simpa using he⟩
  | a :: l, b :: m, x, y, hl, hp, hq, he => by
    simp only [List.flatMap_cons, List.append_assoc] at he
    obtain ⟨h1, h2⟩ := h a b _ _ (hp a (by simp)) (hq b (by simp)) he
    obtain ⟨h3, h4⟩ := Delim.flatMap h l m x y (by simpa using hl) (fun a ha => hp a (by simp [ha]))
      (fun a ha => hq a (by simp [ha])) h2
    exact ⟨by simp [h1, h3], h4⟩
  | [], _ :: _, _, _, hl, _, _, _ => by simp at hl
  | _ :: _, [], _, _, hl, _, _, _ => by simp at hl

theorem leBytes8_append {m n : Nat} {x y : List UInt8} (hm : m < 2 ^ 64) (hn : n < 2 ^ 64)
    (h : leBytes 8 m ++ x = leBytes 8 n ++ y) : m = n ∧ x = y := by
  obtain ⟨h1, h2⟩ := List.append_inj h (by simp)
  have := congrArg leVal h1
  rw [leVal_leBytes_of_lt (by omega), leVal_leBytes_of_lt (by omega)] at this
  exact ⟨this, h2⟩

theorem toNat_ofNat64 {n : Nat} (h : n < 2 ^ 64) : (BitVec.ofNat 64 n).toNat = n := by
  rw [BitVec.toNat_ofNat]
  exact Nat.mod_eq_of_lt h

/-- A counted sequence. -/
theorem Delim.counted {P : α → Prop} {e : α → List UInt8} {f : α → β} (h : Delim P e f) :
    Delim (fun l : List α => l.length < 2 ^ 64 ∧ ∀ a ∈ l, P a)
      (fun l => leBytes 8 (BitVec.ofNat 64 l.length).toNat ++ l.flatMap e) (fun l => l.map f) := by
  intro l m x y hl hm he
  simp only [List.append_assoc] at he
  rw [toNat_ofNat64 hl.1, toNat_ofNat64 hm.1] at he
  obtain ⟨h1, h2⟩ := leBytes8_append hl.1 hm.1 he
  exact h.flatMap l m x y h1 hl.2 hm.2 h2

end Verif
