import Verif.Spec.Base64
import Verif.Lemmas.Text

/-!
# Base64 and text
-/

namespace Verif

theorem b64Value_symbol {n : Nat} (h : n < 64) : b64Value (b64Symbol n) = some n := by
  have : ∀ n : Fin 64, b64Value (b64Symbol n.1) = some n.1 := by decide +kernel
  exact this ⟨n, h⟩

theorem b64Symbol_value {c : UInt8} {n : Nat} (h : b64Value c = some n) : n < 64 ∧ b64Symbol n = c := by
  have : ∀ c : UInt8, (b64Value c).all (fun n => decide (n < 64 ∧ b64Symbol n = c)) = true := by
    refine byte_cases ?_
    decide +kernel
  have := this c
  rw [h] at this
  exact of_decide_eq_true this

theorem b64Symbol_ne {n : Nat} (h : n < 64) : b64Symbol n ≠ 61 := by
  have : ∀ n : Fin 64, b64Symbol n.1 ≠ 61 := by decide +kernel
  exact this ⟨n, h⟩

theorem b64Symbol_ascii {n : Nat} (h : n < 64) : b64Symbol n < 128 := by
  have : ∀ n : Fin 64, b64Symbol n.1 < 128 := by decide +kernel
  exact this ⟨n, h⟩

theorem ofNat_eq {n : Nat} {a : UInt8} (h : n = a.toNat) : UInt8.ofNat n = a := by rw [h, UInt8.ofNat_toNat]

theorem b64Decode_encode : ∀ bs : List UInt8, b64Decode (b64Encode bs) = some bs
  | [] => rfl
  | [a] => by
    have ha := a.toNat_lt
    simp only [b64Encode, b64Decode]
    rw [if_pos (by simp), if_pos trivial, b64Value_symbol (by omega), b64Value_symbol (by omega)]
    simp only
    rw [if_pos (by omega), ofNat_eq (a := a) (by omega)]
  | [a, b] => by
    have ha := a.toNat_lt
    have hb := b.toNat_lt
    simp only [b64Encode, b64Decode]
    rw [if_pos (by simp), if_neg (b64Symbol_ne (by omega)), b64Value_symbol (by omega), b64Value_symbol (by omega), b64Value_symbol (by omega)]
    simp only
    rw [if_pos (by omega), ofNat_eq (a := a) (by omega), ofNat_eq (a := b) (by omega)]
  | a :: b :: c :: rest => by
    have ha := a.toNat_lt
    have hb := b.toNat_lt
    have hc := c.toNat_lt
    simp only [b64Encode, b64Decode]
    rw [if_neg (by have := b64Symbol_ne (n := (a.toNat * 65536 + b.toNat * 256 + c.toNat) % 64) (by omega); simp [this]), b64Value_symbol (by omega), b64Value_symbol (by omega),
      b64Value_symbol (by omega), b64Value_symbol (by omega)]
    simp only [b64Decode_encode rest]
    rw [ofNat_eq (a := a) (by omega), ofNat_eq (a := b) (by omega), ofNat_eq (a := c) (by omega)]

theorem toNat_small {n : Nat} (h : n < 256) : (UInt8.ofNat n).toNat = n := by
  rw [UInt8.toNat_ofNat']
  exact Nat.mod_eq_of_lt h

theorem b64Decode_unique : ∀ (s bs : List UInt8), b64Decode s = some bs → s = b64Encode bs
  | [], bs, h => by simp only [b64Decode] at h; cases h; rfl
  | [_], _, h => by simp only [b64Decode] at h; cases h
  | [_, _], _, h => by simp only [b64Decode] at h; cases h
  | [_, _, _], _, h => by simp only [b64Decode] at h; cases h
  | a :: b :: c :: d :: rest, bs, h => by
    simp only [b64Decode] at h
    by_cases h1 : (rest.isEmpty && d == 61) = true
    · rw [if_pos h1] at h
      simp only [Bool.and_eq_true, List.isEmpty_iff, beq_iff_eq] at h1
      obtain ⟨rfl, rfl⟩ := h1
      by_cases h2 : c = 61
      · rw [if_pos h2] at h
        subst h2
        split at h
        · rename_i x y hx hy
          obtain ⟨hx1, hx2⟩ := b64Symbol_value hx
          obtain ⟨hy1, hy2⟩ := b64Symbol_value hy
          split at h
          · cases h
            simp only [b64Encode]
            rw [toNat_small (by omega), show (x * 64 + y) / 16 * 65536 / 262144 = x by omega, show (x * 64 + y) / 16 * 65536 / 4096 % 64 = y by omega, hx2, hy2]
          · cases h
        · cases h
      · rw [if_neg h2] at h
        split at h
        · rename_i x y z hx hy hz
          obtain ⟨hx1, hx2⟩ := b64Symbol_value hx
          obtain ⟨hy1, hy2⟩ := b64Symbol_value hy
          obtain ⟨hz1, hz2⟩ := b64Symbol_value hz
          split at h
          · cases h
            simp only [b64Encode]
            rw [toNat_small (by omega), toNat_small (by omega)]
            rw [← hx2, ← hy2, ← hz2]
            congr 1
            · congr 1; omega
            · congr 1
              · congr 1; omega
              · congr 1
                congr 1
                omega
          · cases h
        · cases h
    · rw [if_neg h1] at h
      split at h
      · rename_i x y z w hx hy hz hw
        obtain ⟨hx1, hx2⟩ := b64Symbol_value hx
        obtain ⟨hy1, hy2⟩ := b64Symbol_value hy
        obtain ⟨hz1, hz2⟩ := b64Symbol_value hz
        obtain ⟨hw1, hw2⟩ := b64Symbol_value hw
        split at h
        · cases h
        · rename_i bs' hr
          cases h
          simp only [b64Encode]
          rw [toNat_small (by omega), toNat_small (by omega), toNat_small (by omega), ← b64Decode_unique rest bs' hr]
          rw [← hx2, ← hy2, ← hz2, ← hw2]
          congr 1
          · congr 1; omega
          · congr 1
            · congr 1; omega
            · congr 1
              · congr 1; omega
              · congr 1
                congr 1
                omega
      · cases h

/-! ## Bytes that are text -/

theorem strBytes_append (a b : String) : strBytes (a ++ b) = strBytes a ++ strBytes b := by
  simp [strBytes]

theorem IsText.append {a b : List UInt8} (h : IsText a) (h' : IsText b) : IsText (a ++ b) := by
  obtain ⟨s, rfl⟩ := h
  obtain ⟨t, rfl⟩ := h'
  exact ⟨s ++ t, strBytes_append s t⟩

theorem isText_byte {b : UInt8} (h : b < 128) : IsText [b] := by
  have key : ∀ n : Fin 128, strBytes (String.singleton (Char.ofNat n.1)) = [UInt8.ofNat n.1] := by decide +kernel
  have hb : b.toNat < 128 := h
  refine ⟨_, (key ⟨b.toNat, hb⟩).trans ?_⟩
  rw [UInt8.ofNat_toNat]

theorem isText_ascii {bs : List UInt8} (h : ∀ b ∈ bs, b < 128) : IsText bs := by
  induction bs with
  | nil => exact ⟨"", by decide +kernel⟩
  | cons b bs ih =>
    exact (isText_byte (h b (by simp))).append (ih fun c hc => h c (by simp [hc]))

theorem strBytes_textOf {bs : List UInt8} (h : IsText bs) : strBytes (textOf bs) = bs := by
  obtain ⟨t, rfl⟩ := h
  rw [textOf, strOfBytes_strBytes]
  rfl

theorem isText_hex (bs : List UInt8) : IsText (hexEncode bs) := by
  refine isText_ascii fun b hb => ?_
  have := (hexEncode_text bs).2 b hb
  have all : ∀ c ∈ ascii "0123456789abcdef", c < 128 := by decide +kernel
  exact all b this

theorem isText_b64 : ∀ bs : List UInt8, IsText (b64Encode bs)
  | [] => isText_ascii (by simp [b64Encode])
  | [a] => by
    have ha := a.toNat_lt
    refine isText_ascii fun c hc => ?_
    simp only [b64Encode, List.mem_cons, List.not_mem_nil, or_false] at hc
    rcases hc with rfl | rfl | rfl | rfl
    · exact b64Symbol_ascii (by omega)
    · exact b64Symbol_ascii (by omega)
    · decide
    · decide
  | [a, b] => by
    have ha := a.toNat_lt
    have hb := b.toNat_lt
    refine isText_ascii fun c hc => ?_
    simp only [b64Encode, List.mem_cons, List.not_mem_nil, or_false] at hc
    rcases hc with rfl | rfl | rfl | rfl
    · exact b64Symbol_ascii (by omega)
    · exact b64Symbol_ascii (by omega)
    · exact b64Symbol_ascii (by omega)
    · decide
  | a :: b :: c :: rest => by
    have ha := a.toNat_lt
    have hb := b.toNat_lt
    have hc := c.toNat_lt
    have := isText_b64 rest
    simp only [b64Encode]
    refine IsText.append (a := [_, _, _, _]) (isText_ascii fun c hc => ?_) this
    simp only [List.mem_cons, List.not_mem_nil, or_false] at hc
    rcases hc with rfl | rfl | rfl | rfl <;> exact b64Symbol_ascii (by omega)

/-! ## The text is base64 -/

theorem b64Symbol_alphabet {n : Nat} (h : n < 64) :
    (ascii "ABCDEFGHIJKLMNOPQRSTUVWXYZabcdefghijklmnopqrstuvwxyz0123456789+/")[n]? = some (b64Symbol n) := by
  have : ∀ n : Fin 64, (ascii "ABCDEFGHIJKLMNOPQRSTUVWXYZabcdefghijklmnopqrstuvwxyz0123456789+/")[n.1]? = some (b64Symbol n.1) := by decide +kernel
  exact this ⟨n, h⟩

theorem bitOf_lt (bs : List UInt8) (k : Nat) : bitOf bs k < 2 := Nat.mod_lt _ (by decide)

theorem sixBits_lt (bs : List UInt8) (i : Nat) : sixBits bs i < 64 := by
  have := bitOf_lt bs
  have h0 := this (6 * i)
  have h1 := this (6 * i + 1)
  have h2 := this (6 * i + 2)
  have h3 := this (6 * i + 3)
  have h4 := this (6 * i + 4)
  have h5 := this (6 * i + 5)
  unfold sixBits
  omega

theorem bitOf_shift (a b c : UInt8) (bs : List UInt8) (k : Nat) : bitOf (a :: b :: c :: bs) (k + 24) = bitOf bs k := by
  unfold bitOf
  rw [show (k + 24) / 8 = k / 8 + 3 by omega, show (k + 24) % 8 = k % 8 by omega]
  simp

theorem sixBits_shift (a b c : UInt8) (bs : List UInt8) (i : Nat) : sixBits (a :: b :: c :: bs) (i + 4) = sixBits bs i := by
  unfold sixBits
  rw [show 6 * (i + 4) = 6 * i + 24 by omega]
  simp only [bitOf_shift, show ∀ j, 6 * i + 24 + j = (6 * i + j) + 24 by omega]

theorem sixBits_0 (a : UInt8) (bs : List UInt8) : sixBits (a :: bs) 0 = a.toNat / 4 := by
  have := a.toNat_lt
  simp [sixBits, bitOf]
  omega

theorem sixBits_1 (a : UInt8) (bs : List UInt8) : sixBits (a :: bs) 1 = a.toNat % 4 * 16 + (bs[0]?.getD 0).toNat / 16 := by
  have := a.toNat_lt
  have := (bs[0]?.getD 0).toNat_lt
  simp only [sixBits, bitOf, Nat.reduceMul, Nat.reduceAdd, Nat.reduceDiv, Nat.reduceMod, Nat.reduceSub, Nat.reducePow, List.getElem?_cons_zero, List.getElem?_cons_succ, Option.getD_some]
  omega

theorem sixBits_2 (a b : UInt8) (bs : List UInt8) : sixBits (a :: b :: bs) 2 = b.toNat % 16 * 4 + (bs[0]?.getD 0).toNat / 64 := by
  have := b.toNat_lt
  have := (bs[0]?.getD 0).toNat_lt
  simp only [sixBits, bitOf, Nat.reduceMul, Nat.reduceAdd, Nat.reduceDiv, Nat.reduceMod, Nat.reduceSub, Nat.reducePow, List.getElem?_cons_zero, List.getElem?_cons_succ, Option.getD_some]
  omega

theorem sixBits_3 (a b c : UInt8) (bs : List UInt8) : sixBits (a :: b :: c :: bs) 3 = c.toNat % 64 := by
  have := c.toNat_lt
  simp only [sixBits, bitOf, Nat.reduceMul, Nat.reduceAdd, Nat.reduceDiv, Nat.reduceMod, Nat.reduceSub, Nat.reducePow, List.getElem?_cons_zero, List.getElem?_cons_succ, Option.getD_some]
  omega

theorem b64Encode_base64 : ∀ bs : List UInt8, IsBase64 (b64Encode bs) bs
  | [] => ⟨rfl, by simp [b64Encode]⟩
  | [a] => by
    refine ⟨by simp [b64Encode], fun i hi => ?_⟩
    have ha := a.toNat_lt
    rw [b64Symbol_alphabet (sixBits_lt _ _)]
    simp only [b64Encode, List.length_cons, List.length_nil] at hi ⊢
    rcases i with _ | _ | _ | _ | i
    · simp [sixBits_0, show a.toNat * 65536 / 262144 = a.toNat / 4 by omega]
    · simp [sixBits_1]
      congr 1
      omega
    · simp
    · simp
    · omega
  | [a, b] => by
    refine ⟨by simp [b64Encode], fun i hi => ?_⟩
    have ha := a.toNat_lt
    have hb := b.toNat_lt
    rw [b64Symbol_alphabet (sixBits_lt _ _)]
    simp only [b64Encode, List.length_cons, List.length_nil] at hi ⊢
    rcases i with _ | _ | _ | _ | i
    · simp [sixBits_0]
      congr 1
      omega
    · simp [sixBits_1]
      congr 1
      omega
    · simp [sixBits_2]
      congr 1
      omega
    · simp
    · omega
  | a :: b :: c :: bs => by
    obtain ⟨i1, i2⟩ := b64Encode_base64 bs
    have ha := a.toNat_lt
    have hb := b.toNat_lt
    have hc := c.toNat_lt
    refine ⟨by simp only [b64Encode, List.length_cons, i1]; omega, fun i hi => ?_⟩
    rcases i with _ | _ | _ | _ | i
    · rw [if_pos (by simp), b64Symbol_alphabet (sixBits_lt _ _)]
      simp [b64Encode, sixBits_0]
      congr 1
      omega
    · rw [if_pos (by simp; omega), b64Symbol_alphabet (sixBits_lt _ _)]
      simp [b64Encode, sixBits_1]
      congr 1
      omega
    · rw [if_pos (by simp; omega), b64Symbol_alphabet (sixBits_lt _ _)]
      simp [b64Encode, sixBits_2]
      congr 1
      omega
    · rw [if_pos (by simp; omega), b64Symbol_alphabet (sixBits_lt _ _)]
      simp [b64Encode, sixBits_3]
      congr 1
      omega
    · have := i2 i (by simp only [b64Encode, List.length_cons] at hi; omega)
      rw [sixBits_shift]
      simp only [b64Encode, List.getElem?_cons_succ, this, List.length_cons]
      by_cases h : 6 * i < 8 * bs.length
      · rw [if_pos h, if_pos (by omega)]
      · rw [if_neg h, if_neg (by omega)]

theorem base64_iff (s bs : List UInt8) : IsBase64 s bs ↔ s = b64Encode bs := by
  constructor
  · rintro ⟨h1, h2⟩
    obtain ⟨e1, e2⟩ := b64Encode_base64 bs
    apply List.ext_getElem?
    intro i
    by_cases hi : i < s.length
    · rw [h2 i hi, e2 i (by omega)]
    · rw [List.getElem?_eq_none (by omega), List.getElem?_eq_none (by omega)]
  · rintro rfl; exact b64Encode_base64 bs

end Verif
