import Verif.Spec.Debug
import Verif.Model.Debug

/-!
# What debug texts show (C80)
-/

namespace Verif

namespace Debug

/-- Spaces at the beginning of lines do not change the numbers of a text. -/
theorem numbers_pad (cs : List Char) : (∀ run, numbersAfter run (pad false cs) = numbersAfter run cs) ∧
    numbersAfter none (pad true cs) = numbersAfter none cs := by
  induction cs with
  | nil => exact ⟨fun _ => rfl, rfl⟩
  | cons c cs ih =>
    have key : ∀ run, numbersAfter run (c :: pad (c == '\n') cs) = numbersAfter run (c :: cs) := by
      intro run
      rw [numbersAfter, numbersAfter]
      by_cases hc : c = '\n'
      · subst hc
        rw [show ('\n' == '\n') = true from rfl, ih.2]
        rfl
      · rw [show (c == '\n') = false from by simpa using hc, ih.1, ih.1]
    refine ⟨fun run => key run, ?_⟩
    rw [pad]
    exact key none

/-- Digits prolong the run. -/
theorem numbers_digits (ds cs : List Char) (h : ∀ c ∈ ds, c.isDigit = true) (hd : ds ≠ []) (run : Option Nat) :
    numbersAfter run (ds ++ cs) = numbersAfter (some (ds.foldl (fun n c => n * 10 + (c.toNat - 48)) (run.getD 0))) cs := by
  induction ds generalizing run with
  | nil => exact absurd rfl hd
  | cons d ds ih =>
    rw [List.cons_append, numbersAfter, if_pos (h d (by simp))]
    by_cases hn : ds = []
    · subst hn; rfl
    · rw [ih (fun c hc => h c (by simp [hc])) hn]; rfl

theorem byte_spec : ∀ n : Fin 256, (∀ c ∈ Nat.toDigits 10 n.1, c.isDigit = true) ∧ Nat.toDigits 10 n.1 ≠ [] ∧
    (Nat.toDigits 10 n.1).foldl (fun n c => n * 10 + (c.toNat - 48)) 0 = n.1 := by decide +kernel

/-- The number of a byte. -/
theorem numbers_byte (b : UInt8) (c : Char) (hc : c.isDigit = false) (cs : List Char) :
    numbersAfter none (byte b ++ c :: cs) = b.toNat :: numbersAfter none (c :: cs) := by
  obtain ⟨h1, h2, h3⟩ := byte_spec ⟨b.toNat, b.toNat_lt⟩
  rw [byte, numbers_digits _ _ h1 h2, Option.getD_none, h3, numbersAfter, numbersAfter, hc]
  rfl

theorem numbers_none (c : Char) (hc : c.isDigit = false) (cs : List Char) : numbersAfter none (c :: cs) = numbersAfter none cs := by
  rw [numbersAfter, hc]; rfl

/-- A text without digits in front. -/
theorem numbers_name (name cs : List Char) (h : ∀ c ∈ name, c.isDigit = false) : numbersAfter none (name ++ cs) = numbersAfter none cs := by
  induction name with
  | nil => rfl
  | cons c name ih => rw [List.cons_append, numbers_none c (h c (by simp)), ih fun c hc => h c (by simp [hc])]

theorem numbers_more (bs : List UInt8) (c : Char) (hc : c.isDigit = false) (cs : List Char) :
    ∀ b : UInt8, numbersAfter none (byte b ++ (more (bs.map byte) ++ c :: cs)) = b.toNat :: (bs.map UInt8.toNat ++ numbersAfter none (c :: cs)) := by
  induction bs with
  | nil => intro b; exact numbers_byte b c hc cs
  | cons b' bs ih =>
    intro b
    rw [List.map_cons, more, List.cons_append, List.cons_append, numbers_byte b _ rfl, numbers_none _ rfl, numbers_none _ rfl, List.append_assoc, ih b']
    rfl

theorem numbers_entries (bs : List UInt8) (c : Char) (hc : c.isDigit = false) (cs : List Char) :
    numbersAfter none (entries (bs.map byte) ++ c :: cs) = bs.map UInt8.toNat ++ numbersAfter none (c :: cs) := by
  cases bs with
  | nil => rfl
  | cons b bs =>
    rw [List.map_cons, entries, List.append_assoc, numbers_more bs c hc cs b]; rfl

theorem pad_append (b : Bool) (cs ds : List Char) (h : cs.getLast? = some '\n') : pad b (cs ++ ds) = pad b cs ++ pad true ds := by
  induction cs generalizing b with
  | nil => simp at h
  | cons c cs ih =>
    cases cs with
    | nil =>
      simp at h
      subst h
      cases b <;> rfl
    | cons d cs =>
      have h' : (d :: cs).getLast? = some '\n' := by simpa [List.getLast?_cons_cons] using h
      cases b
      · rw [List.cons_append, pad, pad, ih _ h']; rfl
      · rw [List.cons_append, pad, pad, ih _ h']; rfl

theorem rows_eq (es : List (List Char)) : rows es = pad true (es.flatMap fun e => e ++ [',', '\n']) := by
  induction es with
  | nil => rfl
  | cons e es ih =>
    rw [List.flatMap_cons, pad_append _ _ _ (by simp), ← ih]; rfl

theorem numbers_lines (bs : List UInt8) (c : Char) (cs : List Char) :
    numbersAfter none ((bs.map byte).flatMap (fun e => e ++ [',', '\n']) ++ c :: cs) = bs.map UInt8.toNat ++ numbersAfter none (c :: cs) := by
  induction bs with
  | nil => rfl
  | cons b bs ih =>
    rw [List.map_cons, List.flatMap_cons, List.append_assoc, List.append_assoc, List.cons_append, numbers_byte b _ rfl, numbers_none _ rfl,
      List.cons_append, List.nil_append, numbers_none _ rfl, ih]
    rfl

theorem numbers_append_none (xs : List Char) (c : Char) (hc : c.isDigit = false) (cs : List Char) (run : Option Nat) :
    numbersAfter run (xs ++ c :: cs) = numbersAfter run xs ++ numbersAfter none cs := by
  induction xs generalizing run with
  | nil => rw [List.nil_append, numbersAfter.eq_2, hc, numbersAfter.eq_1]; rfl
  | cons x xs ih =>
    rw [List.cons_append, numbersAfter, numbersAfter]
    split
    · rw [ih]
    · rw [ih, List.append_assoc]

/-- The list of the bytes, with what follows. -/
theorem numbers_list (f : Layout) (bs : List UInt8) : numbersIn (list f (bs.map byte)) = bs.map UInt8.toNat := by
  unfold numbersIn
  cases f
  · rw [list, numbers_none _ rfl, numbers_entries bs _ rfl]; simp [numbersAfter, Char.isDigit]
  · rw [list]
    split
    · rename_i h
      cases bs with
      | nil => rfl
      | cons => simp at h
    · rw [numbers_none _ rfl, numbers_none _ rfl, rows_eq, numbers_append_none _ _ rfl, (numbers_pad _).2]
      have := numbers_lines bs ' ' []
      rw [numbers_append_none _ _ rfl] at this
      simpa [numbersAfter] using this

/-- The numbers of a derived text are the bytes. -/
theorem numbers_struct (f : Layout) (name : List Char) (h : ∀ c ∈ name, c.isDigit = false) (bs : List UInt8) :
    numbersIn (struct f name bs) = bs.map UInt8.toNat := by
  have hl := numbers_list f bs
  unfold numbersIn at *
  cases f
  · rw [struct, tuple, numbers_name _ _ h, numbers_none _ rfl, numbers_append_none _ _ rfl, hl]; simp [numbersAfter]
  · rw [struct, tuple, numbers_name _ _ h, numbers_none _ rfl, numbers_none _ rfl, numbers_append_none _ _ rfl, (numbers_pad _).2,
      numbers_append_none _ _ rfl, hl]
    simp [numbersAfter, Char.isDigit]

end Debug

/-- C80.  The numbers in the debug text of a private key are its 64 bytes, with `{:?}` and with `{:#?}`: whoever reads a log with the text has the key. -/
theorem C80_shows_key (f : Layout) (k : Arr 64) : numbersIn (PrivateKey.debug f k) = k.1.map UInt8.toNat :=
  Debug.numbers_struct f _ (by decide) k.1

/-- C80.  One function from texts to keys finds the key of every debug text.  So it makes the signatures of the owner. -/
theorem C80_not_hidden : ∃ thief : List Char → Arr 64, ∀ f k, thief (PrivateKey.debug f k) = k ∧
    ∀ E h, PrivateKey.signHash E (thief (PrivateKey.debug f k)) h = PrivateKey.signHash E k h := by
  have back : ∀ f (k : Arr 64), toArr 64 ((numbersIn (PrivateKey.debug f k)).map UInt8.ofNat) = k := by
    intro f k
    have e : (numbersIn (PrivateKey.debug f k)).map UInt8.ofNat = k.1 := by
      rw [C80_shows_key, List.map_map]
      conv => rhs; rw [← List.map_id k.1]
      exact List.map_congr_left fun b _ => by simp
    rw [e, toArr, dif_pos k.2]
  exact ⟨fun s => toArr 64 ((numbersIn s).map UInt8.ofNat), fun f k => ⟨back f k, fun E h => congrArg (PrivateKey.signHash E · h) (back f k)⟩⟩

/-- C80.  The debug texts of public keys and signatures tell them apart. -/
theorem C80_apart (f : Layout) : (∀ a b, PublicKey.debug f a = PublicKey.debug f b → a = b) ∧ ∀ a b, Signature.debug f a = Signature.debug f b → a = b := by
  have inj : ∀ (x y : List UInt8), x.map UInt8.toNat = y.map UInt8.toNat → x = y :=
    fun _ _ h => List.map_inj_right (fun _ _ h => UInt8.toNat_inj.1 h) |>.1 h
  refine ⟨fun a b h => Subtype.ext (inj _ _ ?_), fun a b h => Subtype.ext (inj _ _ ?_)⟩
  · rw [← Debug.numbers_struct f "PublicKey".toList (by decide), ← Debug.numbers_struct f "PublicKey".toList (by decide)]
    exact congrArg numbersIn h
  · rw [← Debug.numbers_struct f "Signature".toList (by decide), ← Debug.numbers_struct f "Signature".toList (by decide)]
    exact congrArg numbersIn h

/-- C80, repaired.  A text that leaves the field out is the same for all keys. -/
theorem C80_hidden_repaired (f : Layout) (k k' : Arr 64) : PrivateKey.debugHidden f k = PrivateKey.debugHidden f k' := rfl

example : PrivateKey.debug .plain (Arr.zero 64) = ("PrivateKey([" ++ String.join (List.replicate 63 "0, ") ++ "0])").toList := by decide +kernel
example : Debug.struct .plain "A".toList [1, 20] = "A([1, 20])".toList := by decide +kernel
example : Debug.struct .pretty "A".toList [1, 20] = "A(\n    [\n        1,\n        20,\n    ],\n)".toList := by decide +kernel
example : Debug.struct .pretty "A".toList [] = "A(\n    [],\n)".toList := by decide +kernel

end Verif
