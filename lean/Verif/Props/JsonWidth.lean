import Verif.Lemmas.JsonWidth
import Verif.Props.JsonText
import Verif.Props.Width
import Verif.Props.Binary

/-!
# C69: JSON on 32-bit targets
-/

namespace Verif

open Serde Json.Grammar

/-- With 64-bit indices the readers and writers are those of all other properties. -/
theorem C69_wide (E : Env) : coveredFieldsOf u64 = coveredFields ∧ transactionSignatureOf u64 = transactionSignature ∧
    v1TransactionOf u64 E = v1Transaction E ∧ blockOf u64 E = block E := ⟨rfl, rfl, rfl, rfl⟩

/-- A 32-bit machine writes the documents and texts a 64-bit machine writes. -/
theorem C69_writes (E : Env) : (∀ t, (v1TransactionOf usize32 E).ser t = (v1Transaction E).ser t) ∧ (∀ b, (blockOf usize32 E).ser b = (block E).ser b) ∧
    (∀ t, (v1TransactionOf usize32 E).toText t = (v1Transaction E).toText t) ∧ ∀ b, (blockOf usize32 E).toText b = (block E).toText b :=
  ⟨(narrows_v1Transaction E).ser, (narrows_block E).ser, (narrows_v1Transaction E).toText, (narrows_block E).toText⟩

/-- A 32-bit machine reads from a document the value a 64-bit machine reads, exactly if all its covered indices are below 2^32. -/
theorem C69_documents (E : Env) (j : Json) :
    (∀ t, (v1TransactionOf usize32 E).de j = .ok t ↔ (v1Transaction E).de j = .ok t ∧ t.IndicesBelow (2 ^ 32)) ∧
    ∀ b, (blockOf usize32 E).de j = .ok b ↔ (block E).de j = .ok b ∧ b.IndicesBelow (2 ^ 32) :=
  ⟨(narrows_v1Transaction E).ok j, (narrows_block E).ok j⟩

/-- The same for texts, JSON or not. -/
theorem C69_texts (E : Env) (finite : List Char → Bool) (s : List Char) :
    (∀ t, (v1TransactionOf usize32 E).ofText finite s = .ok t ↔ (v1Transaction E).ofText finite s = .ok t ∧ t.IndicesBelow (2 ^ 32)) ∧
    ∀ b, (blockOf usize32 E).ofText finite s = .ok b ↔ (block E).ofText finite s = .ok b ∧ b.IndicesBelow (2 ^ 32) :=
  ⟨(narrows_v1Transaction E).ofText finite s, (narrows_block E).ofText finite s⟩

/-- A document with an index of 2^32 or more, read by a 64-bit machine, is refused with an error. -/
theorem C69_refuses (E : Env) (j : Json) :
    (∀ t, (v1Transaction E).de j = .ok t → ¬ t.IndicesBelow (2 ^ 32) → ∃ e, (v1TransactionOf usize32 E).de j = .err e) ∧
    ∀ b, (block E).de j = .ok b → ¬ b.IndicesBelow (2 ^ 32) → ∃ e, (blockOf usize32 E).de j = .err e :=
  ⟨fun _ h => ((narrows_v1Transaction E).eq h).2, fun _ h => ((narrows_block E).eq h).2⟩

/-- Where a 32-bit machine panics a 64-bit machine panics. -/
theorem C69_panic (E : Env) (j : Json) : ((v1TransactionOf usize32 E).de j = .panic → (v1Transaction E).de j = .panic) ∧
    ((blockOf usize32 E).de j = .panic → (block E).de j = .panic) :=
  ⟨(narrows_v1Transaction E).panic j, (narrows_block E).panic j⟩

/-- Without overflow checks no text makes a 32-bit machine panic. -/
theorem C69_calm (E : Env) (finite : List Char → Bool) (hm : E.mode = .unchecked) (s : List Char) :
    (v1TransactionOf usize32 E).ofText finite s ≠ .panic ∧ (blockOf usize32 E).ofText finite s ≠ .panic :=
  ⟨text_calm (fun j _ h => (C52_others E hm j).1 ((C69_panic E j).1 h)) finite s, text_calm (fun j _ h => (C52_others E hm j).2.1 ((C69_panic E j).2 h)) finite s⟩

/-- What a 32-bit machine reads back from its own text. -/
theorem C69_back (E : Env) (finite : List Char → Bool) (t : V1.Transaction) :
    (∃ s, (v1TransactionOf usize32 E).toText t = .ok s ∧ (v1TransactionOf usize32 E).ofText finite s = .ok t) ↔ t.JsonFits ∧ t.IndicesBelow (2 ^ 32) := by
  rw [← C64_v1_transaction E finite t, (C69_writes E).2.2.1]
  constructor
  · rintro ⟨s, h1, h2⟩
    obtain ⟨h3, h4⟩ := ((C69_texts E finite s).1 t).mp h2
    exact ⟨⟨s, h1, h3⟩, h4⟩
  · rintro ⟨⟨s, h1, h3⟩, h4⟩
    exact ⟨s, h1, ((C69_texts E finite s).1 t).mpr ⟨h3, h4⟩⟩

namespace Sample

theorem jsonFits_beyondTxn : beyondTxn.JsonFits := by
  have := jsonFits_v1txn
  simp only [V1.Transaction.JsonFits] at this ⊢
  exact this

theorem below_v1txn : v1txn.IndicesBelow (2 ^ 32) := by
  intro s hs i hi
  simp [v1txn] at hs
  subst hs
  simp [V1.CoveredFields.indices, covered] at hi
  rcases hi with rfl | rfl | rfl | rfl <;> decide

theorem not_below_beyondTxn : ¬ beyondTxn.IndicesBelow (2 ^ 32) := by
  intro hb
  have := hb ⟨h 1, 0, 0, beyond, [1, 2]⟩ (List.mem_singleton.mpr rfl) 4294967296 (List.mem_append_left _ (by simp [beyond]))
  exact absurd this (by decide)

end Sample

/-- A transaction read on both; one that only a 64-bit machine reads. -/
example (finite : List Char → Bool) :
    (∃ s, (v1TransactionOf usize32 Sample.env).toText Sample.v1txn = .ok s ∧ (v1TransactionOf usize32 Sample.env).ofText finite s = .ok Sample.v1txn) ∧
    (∃ s, (v1Transaction Sample.env).toText Sample.beyondTxn = .ok s ∧ (v1Transaction Sample.env).ofText finite s = .ok Sample.beyondTxn ∧
      ∀ t, (v1TransactionOf usize32 Sample.env).ofText finite s ≠ .ok t) := by
  refine ⟨(C69_back _ finite _).mpr ⟨Sample.jsonFits_v1txn, Sample.below_v1txn⟩, ?_⟩
  obtain ⟨s, h1, h2⟩ := (C64_v1_transaction Sample.env finite Sample.beyondTxn).mpr Sample.jsonFits_beyondTxn
  refine ⟨s, h1, h2, fun t h => ?_⟩
  obtain ⟨h3, h4⟩ := ((C69_texts _ finite s).1 t).mp h
  rw [h2] at h3
  cases h3
  exact Sample.not_below_beyondTxn h4

/-- So JSON and binary differ on 32-bit machines: a transaction whose document is refused, and whose bytes are decoded to another transaction. -/
theorem C69_against_binary (E : Env) : ∃ (t t' : V1.Transaction) (lim : Lim) (j : Json), lim.cap < 2 ^ 32 ∧ (v1Transaction E).ser t = .ok j ∧
    (v1Transaction E).de j = .ok t ∧ (∃ e, (v1TransactionOf usize32 E).de j = .err e) ∧ decAs .v1 .narrow lim (enc .v1 t) = .ok (t', []) ∧ t' ≠ t := by
  obtain ⟨j, h1, h2⟩ := (C50_v1_transaction_exactly E Sample.beyondTxn).mpr Sample.jsonFits_beyondTxn
  have hd : dec .v1 Sample.small (enc .v1 Sample.beyondTxn) = .ok (Sample.beyondTxn, []) := by
    have := (Lawful.reads (v := .v1) _ _ Sample.fits_beyondTxn).rt []
    rwa [List.append_nil] at this
  have e : Sample.beyondTxn.mapIndices mod32 = Sample.v1txn := by decide +kernel
  refine ⟨Sample.beyondTxn, Sample.v1txn, Sample.small, j, by decide, h1, h2, (C69_refuses E j).1 _ h2 Sample.not_below_beyondTxn, ?_, by decide +kernel⟩
  rw [(C65_exact _ (by decide) _ _).1 _ hd, e]

end Verif
