import Verif.Props.Network
import Verif.Props.Rfc3339

/-!
# C58 with the real hash function and the real time texts
-/

namespace Verif

theorem digitChar_inj : ∀ i < 16, ∀ j < 16, Nat.digitChar i = Nat.digitChar j → i = j := by decide +kernel

theorem Document.hex_inj (a b : List UInt8) (h : Document.hex a = Document.hex b) : a = b := by
  rw [Document.hex, Document.hex, String.ofList_inj] at h
  induction a generalizing b with
  | nil => cases b with
    | nil => rfl
    | cons y b => simp at h
  | cons x a ih => cases b with
    | nil => simp at h
    | cons y b =>
      simp only [List.flatMap_cons, List.cons_append, List.nil_append, List.cons.injEq] at h
      obtain ⟨h1, h2, h3⟩ := h
      have hx := x.toNat_lt
      have hy := y.toNat_lt
      have e1 := digitChar_inj _ (by omega) _ (by omega) h1
      have e2 := digitChar_inj _ (by omega) _ (by omega) h2
      have e : x = y := UInt8.toNat_inj.mp (by omega)
      rw [e, ih b h3]

theorem Env.checks_of (E : Env) (a : Address) (t c : String) (h : Document.hex a.1 = t) (hc : Document.hex ((E.hash a.1).1.take 6) = c) :
    E.Checks t c := by
  intro b hb
  rw [Document.hex_inj b.1 a.1 (hb.trans h.symm)]
  exact hc

/-- The checksums of the addresses of the built-in networks, computed with BLAKE2b. -/
theorem checks_builtin (m : Mode) (stack : Nat) :
    (Env.real m stack).Checks "7d0c44f7664e2d34e53efde0661a6f628ec9264785ae8e3cd7c973e8d190c3c9" "7b5e3ecbc567" ∧
    (Env.real m stack).Checks "f371c70bce9eb8979cd5099f599ec4e4fcb14e0afcf31f9791e03e6496a4c0b3" "58c98279730b" ∧
    (Env.real m stack).Checks "053b2def3cbdd078c19d62ce2b4f0b1a3c5e0ffbeeff01280efb1f8969b2f5bb" "4fdc680f0807" ∧
    (Env.real m stack).Checks "27c22a6c6e6645802a3b8fa0e5374657438ef12716d2205d3e866272de1b644d" "babd53d6d560" ∧
    (Env.real m stack).Checks "241352c83da002e61f57e96b14f3a5f8b5de22156ce83b753ea495e64f1affeb" "ae88736b2347" ∧
    (Env.real m stack).Checks "0000000000000000000000000000000000000000000000000000000000000000" "89eb0d6a8a69" := by
  have key : ∀ text t c, (addressOf text).check (fun a => decide (Document.hex a.1 = t) && decide (Document.hex ((Blake2b.hash a.1).1.take 6) = c)) = true →
      (Env.real m stack).Checks t c := by
    intro text t c h
    obtain ⟨a, -, h2⟩ := Res.of_check h
    rw [Bool.and_eq_true, decide_eq_true_eq, decide_eq_true_eq] at h2
    exact Env.checks_of _ a t c h2.1 h2.2
  exact ⟨key "7d0c44f7664e2d34e53efde0661a6f628ec9264785ae8e3cd7c973e8d190c3c97b5e3ecbc567" _ _ (by decide +kernel),
    key "f371c70bce9eb8979cd5099f599ec4e4fcb14e0afcf31f9791e03e6496a4c0b358c98279730b" _ _ (by decide +kernel),
    key "053b2def3cbdd078c19d62ce2b4f0b1a3c5e0ffbeeff01280efb1f8969b2f5bb4fdc680f0807" _ _ (by decide +kernel),
    key "27c22a6c6e6645802a3b8fa0e5374657438ef12716d2205d3e866272de1b644dbabd53d6d560" _ _ (by decide +kernel),
    key "241352c83da002e61f57e96b14f3a5f8b5de22156ce83b753ea495e64f1affebae88736b2347" _ _ (by decide +kernel),
    key "000000000000000000000000000000000000000000000000000000000000000089eb0d6a8a69" _ _ (by decide +kernel)⟩

/-- C58: with BLAKE2b and RFC 3339 the three networks are written as the published documents, and read back from them, up to the
order of members, in every build. -/
theorem C58_published (m m' : Mode) (stack : Nat) :
    (∃ n, Network.mainnet m = .ok n ∧ (∃ j, (Serde.network (Env.real m' stack)).ser n = .ok j ∧ Document.mainnet.Reordered j) ∧
      ∀ d, Document.mainnet.Reordered d → (Serde.network (Env.real m' stack)).de d = .ok n) ∧
    (∃ n, Network.zen m = .ok n ∧ (∃ j, (Serde.network (Env.real m' stack)).ser n = .ok j ∧ Document.zen.Reordered j) ∧
      ∀ d, Document.zen.Reordered d → (Serde.network (Env.real m' stack)).de d = .ok n) ∧
    (∃ n, Network.anagami m = .ok n ∧ (∃ j, (Serde.network (Env.real m' stack)).ser n = .ok j ∧ Document.anagami.Reordered j) ∧
      ∀ d, Document.anagami.Reordered d → (Serde.network (Env.real m' stack)).de d = .ok n) := by
  obtain ⟨c1, c2, c3, c4, c5, c6⟩ := checks_builtin m' stack
  have hd := (C55_consensus (Env.real m' stack)).2.2.1
  have keep : ∀ t : DateTime, 0 ≤ t.secs → t.secs < 253402300800 → t.nanos < 1000000000 → (Env.real m' stack).Keeps t := by
    intro t h1 h2 h3
    exact (C60_round_trip m' stack t h3).mpr ⟨by omega, h2⟩
  have fin : ∀ n d, Document.network (Env.real m' stack) n = some d →
      (∃ d, Document.network (Env.real m' stack) n = some d ∧ ∀ d', d.Reordered d' → (Serde.network (Env.real m' stack)).de d' = .ok n) →
      (∃ j, (Serde.network (Env.real m' stack)).ser n = .ok j ∧ d.Reordered j) ∧ ∀ d', d.Reordered d' → (Serde.network (Env.real m' stack)).de d' = .ok n := by
    intro n d h ⟨d', h1, h2⟩
    rw [h, Option.some.injEq] at h1
    exact ⟨(hd n).1 d h, h1 ▸ h2⟩
  refine ⟨?_, ?_, ?_⟩
  · obtain ⟨n, h1, h2⟩ := C58_mainnet_document m (Env.real m' stack)
      (by show (Rfc3339.format ⟨1433600000, 0⟩).map String.ofList = some "2015-06-06T14:13:20Z"; decide +kernel) c1 c2 c3 c4
    exact ⟨n, h1, fin n _ h2 (C58_read_back m _ n (.inl ⟨h1, keep _ (by decide) (by decide) (by decide)⟩))⟩
  · obtain ⟨n, h1, h2⟩ := C58_zen_document m (Env.real m' stack)
      (by show (Rfc3339.format ⟨1673600000, 0⟩).map String.ofList = some "2023-01-13T08:53:20Z"; decide +kernel) c3 c6
    exact ⟨n, h1, fin n _ h2 (C58_read_back m _ n (.inr (.inl ⟨h1, keep _ (by decide) (by decide) (by decide)⟩)))⟩
  · obtain ⟨n, h1, h2⟩ := C58_anagami_document m (Env.real m' stack)
      (by show (Rfc3339.format ⟨1724284800, 0⟩).map String.ofList = some "2024-08-22T00:00:00Z"; decide +kernel) c5 c6
    exact ⟨n, h1, fin n _ h2 (C58_read_back m _ n (.inr (.inr ⟨h1, keep _ (by decide) (by decide) (by decide)⟩)))⟩

end Verif
