import Verif.Spec.Memory
import Verif.Lemmas.Codec
import Verif.Lemmas.Width

/-!
# Lemmas on the memory that decoders ask for
-/

namespace Verif

variable {v : Ver} {α β : Type} {A : Alloc} {S n m : Nat}

/-- Bytes asked for per byte of input. -/
def Alloc.rate (A : Alloc) (S : Nat) : Nat := if A.grow then 8 * S else S

/-- The machine can give what is asked for while reading `len` bytes. -/
def Alloc.ample (A : Alloc) (S : Nat) (M : Machine) (len : Nat) : Prop :=
  if A.grow then S * (2 * len + 8) ≤ M.bytes else S * 2 ^ 64 ≤ M.bytes

theorem Alloc.ample.mono {M : Machine} {l l' : Nat} (h : A.ample S M l) (hl : l' ≤ l) : A.ample S M l' := by
  unfold Alloc.ample at *
  split
  · next hg =>
    rw [if_pos hg] at h
    exact Nat.le_trans (Nat.mul_le_mul_left S (by omega)) h
  · next hg =>
    rw [if_neg hg] at h
    exact h

/-- What is kept up along a decoder with account, beside the decoder without: it reads at least `n` bytes, and these are not charged. -/
structure Fair (A : Alloc) (S n : Nat) (d : Met α) (d' : Dec α) : Prop where
  cost : ∀ M bs a r, (d M bs).2 = .ok (a, r) → r.length + n ≤ bs.length ∧ (d M bs).1 + A.rate S * (r.length + n) ≤ A.rate S * bs.length
  all : A.grow = true → ∀ M bs, (d M bs).1 ≤ A.rate S * bs.length
  same : ∀ M bs, A.ample S M bs.length → (d M bs).2 = d' ⟨2 ^ 64, M.stack⟩ bs
  stable : ∀ M M' bs, M.stack = M'.stack → (d M' bs).2 ≠ .panic → (d M' bs).1 ≤ M.bytes → d M bs = d M' bs

theorem Met.bind_def (d : Met α) (f : α → Met β) (M : Machine) (bs : List UInt8) :
    (d >>= f) M bs = (match d M bs with
      | (c, .ok (a, r)) => (c + (f a M r).1, (f a M r).2)
      | (c, .err e) => (c, .err e)
      | (c, .panic) => (c, .panic)) := rfl

theorem Dec.bind_def (d : Dec α) (f : α → Dec β) (lim : Lim) (bs : List UInt8) :
    (d >>= f) lim bs = (match d lim bs with
      | .ok (a, r) => f a lim r
      | .err e => .err e
      | .panic => .panic) := rfl

theorem Fair.weaken {d : Met α} {d' : Dec α} (h : Fair A S n d d') (hm : m ≤ n) : Fair A S m d d' where
  cost M bs a r hr := by
    obtain ⟨h1, h2⟩ := h.cost M bs a r hr
    refine ⟨by omega, ?_⟩
    have := Nat.mul_le_mul_left (A.rate S) (show r.length + m ≤ r.length + n by omega)
    omega
  all := h.all
  same := h.same
  stable := h.stable

theorem Fair.pure (a : α) : Fair A S 0 (Pure.pure a) (Pure.pure a) where
  cost M bs b r hr := by
    cases hr
    exact ⟨Nat.le_refl _, by show 0 + _ ≤ _; simp⟩
  all _ M bs := Nat.zero_le _
  same M bs _ := rfl
  stable M M' bs _ _ _ := rfl

theorem Fair.fail (e : Err) : Fair (α := α) A S n (Met.fail e) (Dec.fail e) where
  cost M bs b r hr := by cases hr
  all _ M bs := Nat.zero_le _
  same M bs _ := rfl
  stable M M' bs _ _ _ := rfl

theorem Fair.crash : Fair (α := α) A S n Met.crash Dec.crash where
  cost M bs b r hr := by cases hr
  all _ M bs := Nat.zero_le _
  same M bs _ := rfl
  stable M M' bs _ _ _ := rfl

theorem Fair.bind {d : Met α} {d' : Dec α} {f : α → Met β} {f' : α → Dec β} (h : Fair A S n d d') (hf : ∀ a, Fair A S m (f a) (f' a)) :
    Fair A S (n + m) (d >>= f) (d' >>= f') where
  cost M bs b r hr := by
    rw [Met.bind_def] at hr ⊢
    have h1 := h.cost M bs
    match hd : d M bs with
    | (c, .ok (a, r')) =>
      rw [hd] at hr h1
      obtain ⟨h2, h3⟩ := h1 a r' rfl
      obtain ⟨h4, h5⟩ := (hf a).cost M r' b r hr
      refine ⟨by omega, ?_⟩
      show c + _ + _ ≤ _
      simp only [Nat.mul_add] at h3 h5 ⊢
      omega
    | (c, .err e) => rw [hd] at hr; cases hr
    | (c, .panic) => rw [hd] at hr; cases hr
  all hg M bs := by
    rw [Met.bind_def]
    have h1 := h.cost M bs
    have h2 := h.all hg M bs
    match hd : d M bs with
    | (c, .ok (a, r')) =>
      rw [hd] at h1
      obtain ⟨h2, h3⟩ := h1 a r' rfl
      have := (hf a).all hg M r'
      show c + _ ≤ _
      simp only [Nat.mul_add] at h3
      omega
    | (c, .err e) => rw [hd] at h2; exact h2
    | (c, .panic) => rw [hd] at h2; exact h2
  same M bs hb := by
    rw [Met.bind_def, Dec.bind_def, ← h.same M bs hb]
    have h1 := h.cost M bs
    match hd : d M bs with
    | (c, .ok (a, r')) =>
      rw [hd] at h1
      obtain ⟨h2, -⟩ := h1 a r' rfl
      exact (hf a).same M r' (hb.mono (by omega))
    | (c, .err e) => rfl
    | (c, .panic) => rfl
  stable M M' bs hs hp hc := by
    rw [Met.bind_def] at hp hc
    rw [Met.bind_def, Met.bind_def]
    match hd : d M' bs with
    | (c, .ok (a, r')) =>
      rw [hd] at hp hc
      have e := h.stable M M' bs hs (by rw [hd]; exact fun h => by cases h) (by rw [hd]; exact Nat.le_trans (Nat.le_add_right _ _) hc)
      rw [e, hd]
      show (c + (f a M r').1, (f a M r').2) = _
      rw [(hf a).stable M M' r' hs hp (Nat.le_trans (Nat.le_add_left _ _) hc)]
    | (c, .err e) =>
      rw [hd] at hc
      rw [h.stable M M' bs hs (by rw [hd]; exact fun h => by cases h) (by rw [hd]; exact hc), hd]
    | (c, .panic) => rw [hd] at hp; exact absurd rfl hp

theorem Fair.map {d : Met α} {d' : Dec α} (h : Fair A S n d d') (f : α → β) :
    Fair A S n (d >>= fun a => Pure.pure (f a)) (d' >>= fun a => Pure.pure (f a)) := h.bind fun _ => Fair.pure _

theorem Fair.ite {c : Prop} [Decidable c] {d e : Met α} {d' e' : Dec α} (h : Fair A S n d d') (h' : Fair A S n e e') :
    Fair A S n (if c then d else e) (if c then d' else e') := by
  split
  · exact h
  · exact h'

/-- A decoder that does not look at the limits of the machine and reads at least `n` bytes. -/
theorem Fair.quiet {d : Dec α} (hl : ∀ lim lim' bs, d lim bs = d lim' bs) (hu : ∀ lim bs a r, d lim bs = .ok (a, r) → r.length + n ≤ bs.length) :
    Fair A S n (.quiet d) d where
  cost M bs a r hr := by
    have := hu _ _ _ _ hr
    refine ⟨this, ?_⟩
    show 0 + _ ≤ _
    rw [Nat.zero_add]
    exact Nat.mul_le_mul_left _ this
  all _ M bs := Nat.zero_le _
  same M bs _ := hl _ _ _
  stable M M' bs _ _ _ := by
    show (0, d _ bs) = (0, d _ bs)
    rw [hl]

/-- Reading `n` elements that cost at least a byte each. -/
theorem Fair.metN {d : Met α} {d' : Dec α} (h : Fair A S 1 d d') : ∀ n, Fair A S n (Verif.metN d n) (decodeN d' n)
  | 0 => Fair.pure _
  | n + 1 => by
    have := h.bind (m := n) fun a => (Fair.metN h n).map (a :: ·)
    rw [Nat.add_comm] at this
    exact this

theorem Met.ask_ok {n : Nat} {M : Machine} (h : n ≤ M.bytes) (bs : List UInt8) : Met.ask n M bs = (n, .ok ((), bs)) := by
  unfold Met.ask
  rw [if_pos h]

theorem Met.ask_panic {n : Nat} {M : Machine} (h : ¬ n ≤ M.bytes) (bs : List UInt8) : Met.ask n M bs = (n, .panic) := by
  unfold Met.ask
  rw [if_neg h]

theorem Met.ask_bind_ok {n : Nat} {M : Machine} (h : n ≤ M.bytes) (f : Unit → Met α) (bs : List UInt8) :
    (Met.ask n >>= f) M bs = (n + (f () M bs).1, (f () M bs).2) := by
  rw [Met.bind_def, Met.ask_ok h]

theorem Met.ask_bind_panic {n : Nat} {M : Machine} (h : ¬ n ≤ M.bytes) (f : Unit → Met α) (bs : List UInt8) :
    (Met.ask n >>= f) M bs = (n, .panic) := by
  rw [Met.bind_def, Met.ask_panic h]

/-- A vector reserved from its length prefix: on success the elements pay for the reservation. -/
theorem Fair.reserved {d : Met α} {d' : Dec α} {size : Nat} (hg : A.grow = false) (hs : size ≤ S) (h : Fair A S 1 d d') (hn : n ≤ 2 ^ 64) :
    Fair A S 0 (Met.ask (n * size) >>= fun _ => Verif.metN d n) (Dec.reserve n >>= fun _ => decodeN d' n) where
  cost M bs a r hr := by
    by_cases hb : n * size ≤ M.bytes
    · rw [Met.ask_bind_ok hb] at hr ⊢
      obtain ⟨h1, h2⟩ := (h.metN n).cost M bs a r hr
      refine ⟨by omega, ?_⟩
      have hk : A.rate S = S := if_neg (by simp [hg])
      have := Nat.mul_le_mul_left n hs
      rw [hk, Nat.mul_add, Nat.mul_comm S n] at h2
      rw [hk]
      show n * size + _ + _ ≤ _
      rw [Nat.add_zero]
      omega
    · rw [Met.ask_bind_panic hb] at hr
      cases hr
  all hg' := by rw [hg] at hg'; cases hg'
  same M bs hb := by
    have hb' : S * 2 ^ 64 ≤ M.bytes := by
      unfold Alloc.ample at hb
      rwa [if_neg (by simp [hg])] at hb
    have : n * size ≤ M.bytes := by
      rw [Nat.mul_comm]
      exact Nat.le_trans (Nat.mul_le_mul hs hn) hb'
    rw [Met.ask_bind_ok this, Dec.bind_def, Dec.reserve, if_pos hn]
    exact (h.metN n).same M bs hb
  stable M M' bs hst hp hc := by
    by_cases hb : n * size ≤ M'.bytes
    · rw [Met.ask_bind_ok hb] at hp hc ⊢
      have h1 : n * size ≤ M.bytes := Nat.le_trans (Nat.le_add_right _ _) hc
      rw [Met.ask_bind_ok h1, (h.metN n).stable M M' bs hst hp (Nat.le_trans (Nat.le_add_left _ _) hc)]
    · rw [Met.ask_bind_panic hb] at hp
      exact absurd rfl hp

/-- The capacity of the first request. -/
def firstCap (size : Nat) : Nat := if size = 1 then 8 else if size ≤ 1024 then 4 else 1

theorem firstCap_bounds (size : Nat) : 1 ≤ firstCap size ∧ firstCap size ≤ 8 := by
  unfold firstCap
  split
  · omega
  · split <;> omega

theorem grownCap_zero (size : Nat) : grownCap size 0 = firstCap size := by
  have := firstCap_bounds size
  show max (max _ _) (firstCap size) = _
  omega

theorem grownCap_double {size cap : Nat} (h : firstCap size ≤ cap) : grownCap size cap = 2 * cap := by
  have := firstCap_bounds size
  show max (max _ _) (firstCap size) = _
  omega

/-- A vector with room for `cap` that holds `k` elements and for which `t` times the size of an element has been asked for. -/
structure Grown (size cap k t : Nat) : Prop where
  fits : k ≤ cap
  start : cap = 0 ∨ firstCap size ≤ cap
  paid : t ≤ 2 * cap
  each : t ≤ 8 * k

theorem Grown.zero (size : Nat) : Grown size 0 0 0 := ⟨Nat.le_refl _, Or.inl rfl, Nat.zero_le _, Nat.zero_le _⟩

theorem Grown.room {size cap k t : Nat} (h : Grown size cap k t) (hk : k ≠ cap) : Grown size cap (k + 1) t :=
  ⟨by have := h.fits; omega, h.start, h.paid, by have := h.each; omega⟩

theorem Grown.full {size k t : Nat} (h : Grown size k k t) : Grown size (grownCap size k) (k + 1) (t + grownCap size k) := by
  have hf := firstCap_bounds size
  have h1 := h.paid
  rcases h.start with h0 | h0
  · subst h0
    rw [grownCap_zero]
    exact ⟨by omega, by omega, by omega, by omega⟩
  · rw [grownCap_double h0]
    exact ⟨by omega, by omega, by omega, by omega⟩

theorem Grown.request {size k t : Nat} (h : Grown size k k t) : grownCap size k ≤ 2 * k + 8 := by
  have hf := firstCap_bounds size
  rcases h.start with h0 | h0
  · subst h0
    rw [grownCap_zero]
    omega
  · rw [grownCap_double h0]
    omega

/-- The step of the loop with growing. -/
theorem metPush_succ (size : Nat) (d : Met α) (cap k n : Nat) (M : Machine) (bs : List UInt8) :
    metPush size d cap k (n + 1) M bs = (match d M bs with
      | (c, .ok (a, r)) =>
        if k = cap then
          if grownCap size cap * size ≤ M.bytes then
            match metPush size d (grownCap size cap) (k + 1) n M r with
            | (c', .ok (as, r')) => (c + (grownCap size cap * size + c'), .ok (a :: as, r'))
            | (c', .err e) => (c + (grownCap size cap * size + c'), .err e)
            | (c', .panic) => (c + (grownCap size cap * size + c'), .panic)
          else (c + grownCap size cap * size, .panic)
        else
          match metPush size d cap (k + 1) n M r with
          | (c', .ok (as, r')) => (c + c', .ok (a :: as, r'))
          | (c', .err e) => (c + c', .err e)
          | (c', .panic) => (c + c', .panic)
      | (c, .err e) => (c, .err e)
      | (c, .panic) => (c, .panic)) := by
  rw [metPush, Met.bind_def]
  match hd : d M bs with
  | (c, .ok (a, r)) =>
    dsimp only
    by_cases hk : k = cap
    · rw [if_pos hk, if_pos hk]
      by_cases hb : grownCap size cap * size ≤ M.bytes
      · rw [if_pos hb, Met.ask_bind_ok hb, Met.bind_def]
        match metPush size d (grownCap size cap) (k + 1) n M r with
        | (c', .ok (as, r')) => rfl
        | (c', .err e) => rfl
        | (c', .panic) => rfl
      · rw [if_neg hb, Met.ask_bind_panic hb]
    · rw [if_neg hk, if_neg hk, Met.bind_def]
      match metPush size d cap (k + 1) n M r with
      | (c', .ok (as, r')) => rfl
      | (c', .err e) => rfl
      | (c', .panic) => rfl
  | (c, .err e) => rfl
  | (c, .panic) => rfl

theorem Alloc.rate_grow (hg : A.grow = true) : A.rate S = 8 * S := if_pos hg

/-- What growing costs, when all goes well and otherwise. -/
theorem Fair.push_cost {d : Met α} {d' : Dec α} {size : Nat} (hg : A.grow = true) (hs : size ≤ S) (h : Fair A S 1 d d') (M : Machine) :
    ∀ n cap k t bs, Grown size cap k t →
      t * size + (metPush size d cap k n M bs).1 ≤ A.rate S * (k + bs.length) ∧
      ∀ l r, (metPush size d cap k n M bs).2 = .ok (l, r) → r.length ≤ bs.length ∧
        t * size + (metPush size d cap k n M bs).1 + A.rate S * r.length ≤ A.rate S * (k + bs.length) := by
  have hr := Alloc.rate_grow (S := S) hg
  have hbound : ∀ {cap k t}, Grown size cap k t → t * size ≤ A.rate S * k := by
    intro cap k t hG
    rw [hr]
    calc t * size ≤ 8 * k * S := Nat.mul_le_mul hG.each hs
      _ = 8 * S * k := by rw [Nat.mul_assoc, Nat.mul_assoc, Nat.mul_comm k S]
  intro n
  induction n with
  | zero =>
    intro cap k t bs hG
    have h0 := hbound hG
    have e : metPush size d cap k 0 M bs = (0, .ok ([], bs)) := by rw [metPush]; rfl
    rw [e]
    refine ⟨?_, fun l r he => ?_⟩
    · rw [Nat.mul_add]
      show _ + 0 ≤ _
      omega
    · cases he
      refine ⟨Nat.le_refl _, ?_⟩
      rw [Nat.mul_add]
      show _ + 0 + _ ≤ _
      omega
  | succ n ih =>
    intro cap k t bs hG
    have h0 := hbound hG
    rw [metPush_succ]
    have hc := h.cost M bs
    have ha := h.all hg M bs
    match hd : d M bs with
    | (c, .ok (a, r)) =>
      rw [hd] at hc
      obtain ⟨h1, h2⟩ := hc a r rfl
      dsimp only
      simp only [Nat.mul_add, Nat.mul_one] at h2
      by_cases hk : k = cap
      · subst hk
        have hG' := hG.full
        rw [if_pos rfl]
        have h4 := hbound hG'
        rw [Nat.add_mul, Nat.mul_add, Nat.mul_one] at h4
        by_cases hb : grownCap size k * size ≤ M.bytes
        · rw [if_pos hb]
          have := ih _ _ _ r hG'
          match hp : metPush size d (grownCap size k) (k + 1) n M r with
          | (c', .ok (as, r')) =>
            rw [hp] at this
            obtain ⟨h5, h6⟩ := this
            have h7 := h6 _ _ rfl
            dsimp only at h5 h7 ⊢
            simp only [Nat.mul_add, Nat.add_mul, Nat.mul_one] at h5 h7 ⊢
            refine ⟨by omega, fun l r'' he => ?_⟩
            cases he
            omega
          | (c', .err e) =>
            rw [hp] at this
            have h5 := this.1
            dsimp only at h5 ⊢
            simp only [Nat.mul_add, Nat.add_mul, Nat.mul_one] at h5 ⊢
            exact ⟨by omega, fun l r'' he => by cases he⟩
          | (c', .panic) =>
            rw [hp] at this
            have h5 := this.1
            dsimp only at h5 ⊢
            simp only [Nat.mul_add, Nat.add_mul, Nat.mul_one] at h5 ⊢
            exact ⟨by omega, fun l r'' he => by cases he⟩
        · rw [if_neg hb]
          dsimp only
          simp only [Nat.mul_add]
          exact ⟨by omega, fun l r'' he => by cases he⟩
      · rw [if_neg hk]
        have := ih _ _ _ r (hG.room hk)
        match hp : metPush size d cap (k + 1) n M r with
        | (c', .ok (as, r')) =>
          rw [hp] at this
          obtain ⟨h5, h6⟩ := this
          have h7 := h6 _ _ rfl
          dsimp only at h5 h7 ⊢
          simp only [Nat.mul_add, Nat.mul_one] at h5 h7 ⊢
          refine ⟨by omega, fun l r'' he => ?_⟩
          cases he
          omega
        | (c', .err e) =>
          rw [hp] at this
          have h5 := this.1
          dsimp only at h5 ⊢
          simp only [Nat.mul_add, Nat.mul_one] at h5 ⊢
          exact ⟨by omega, fun l r'' he => by cases he⟩
        | (c', .panic) =>
          rw [hp] at this
          have h5 := this.1
          dsimp only at h5 ⊢
          simp only [Nat.mul_add, Nat.mul_one] at h5 ⊢
          exact ⟨by omega, fun l r'' he => by cases he⟩
    | (c, .err e) =>
      rw [hd] at ha
      dsimp only at ha ⊢
      rw [Nat.mul_add]
      exact ⟨by omega, fun l r he => by cases he⟩
    | (c, .panic) =>
      rw [hd] at ha
      dsimp only at ha ⊢
      rw [Nat.mul_add]
      exact ⟨by omega, fun l r he => by cases he⟩

/-- The elements are the same whether the vector was reserved or grows. -/
theorem Fair.push_same {d : Met α} {d' : Dec α} {size : Nat} (hg : A.grow = true) (hs : size ≤ S) (h : Fair A S 1 d d') (M : Machine) :
    ∀ n cap k t bs, Grown size cap k t → S * (2 * (k + bs.length) + 8) ≤ M.bytes →
      (metPush size d cap k n M bs).2 = decodeN d' n ⟨2 ^ 64, M.stack⟩ bs := by
  intro n
  induction n with
  | zero => exact fun _ _ _ _ _ _ => rfl
  | succ n ih =>
    intro cap k t bs hG hb
    have ham : A.ample S M bs.length := by
      unfold Alloc.ample
      rw [if_pos hg]
      exact Nat.le_trans (Nat.mul_le_mul_left S (by omega)) hb
    have hc := h.cost M bs
    rw [metPush_succ, decodeN, Dec.bind_def, ← h.same M bs ham]
    match hd : d M bs with
    | (c, .ok (a, r)) =>
      rw [hd] at hc
      obtain ⟨h1, -⟩ := hc a r rfl
      have hb' : S * (2 * (k + 1 + r.length) + 8) ≤ M.bytes := Nat.le_trans (Nat.mul_le_mul_left S (by omega)) hb
      dsimp only
      rw [Dec.bind_def]
      by_cases hk : k = cap
      · subst hk
        have hq : grownCap size k * size ≤ M.bytes := by
          refine Nat.le_trans ?_ hb
          rw [Nat.mul_comm]
          exact Nat.mul_le_mul hs (by have := hG.request; omega)
        rw [if_pos rfl, if_pos hq, ← ih _ _ _ r hG.full hb']
        match metPush size d (grownCap size k) (k + 1) n M r with
        | (c', .ok (as, r')) => rfl
        | (c', .err e) => rfl
        | (c', .panic) => rfl
      · rw [if_neg hk, ← ih _ _ _ r (hG.room hk) hb']
        match metPush size d cap (k + 1) n M r with
        | (c', .ok (as, r')) => rfl
        | (c', .err e) => rfl
        | (c', .panic) => rfl
    | (c, .err e) => rfl
    | (c, .panic) => rfl

/-- A machine that can give the total can give every part of it. -/
theorem Fair.push_stable {d : Met α} {d' : Dec α} {size : Nat} (h : Fair A S 1 d d') (M M' : Machine) (hst : M.stack = M'.stack) :
    ∀ n cap k bs, (metPush size d cap k n M' bs).2 ≠ .panic → (metPush size d cap k n M' bs).1 ≤ M.bytes →
      metPush size d cap k n M bs = metPush size d cap k n M' bs := by
  intro n
  induction n with
  | zero => exact fun _ _ _ _ _ => rfl
  | succ n ih =>
    intro cap k bs hp hc
    rw [metPush_succ] at hp hc
    rw [metPush_succ, metPush_succ]
    match hd : d M' bs with
    | (c, .ok (a, r)) =>
      rw [hd] at hp hc
      dsimp only at hp hc
      by_cases hk : k = cap
      · rw [if_pos hk] at hp hc
        by_cases hb : grownCap size cap * size ≤ M'.bytes
        · rw [if_pos hb] at hp hc
          have key : ∀ x, metPush size d (grownCap size cap) (k + 1) n M' r = x → x.2 ≠ .panic ∧ c + (grownCap size cap * size + x.1) ≤ M.bytes := by
            rintro ⟨c', x⟩ hx
            rw [hx] at hp hc
            match x with
            | .ok (as, r') => exact ⟨fun h => (by cases h), hc⟩
            | .err e => exact ⟨fun h => (by cases h), hc⟩
            | .panic => exact absurd rfl hp
          obtain ⟨k1, k2⟩ := key _ rfl
          rw [h.stable M M' bs hst (by rw [hd]; exact fun h => by cases h) (by rw [hd]; dsimp only; omega), hd]
          dsimp only
          rw [if_pos hk, if_pos hk, if_pos hb, if_pos (by omega), ih _ _ r k1 (by omega)]
        · rw [if_neg hb] at hp
          exact absurd rfl hp
      · rw [if_neg hk] at hp hc
        have key : ∀ x, metPush size d cap (k + 1) n M' r = x → x.2 ≠ .panic ∧ c + x.1 ≤ M.bytes := by
          rintro ⟨c', x⟩ hx
          rw [hx] at hp hc
          match x with
          | .ok (as, r') => exact ⟨fun h => (by cases h), hc⟩
          | .err e => exact ⟨fun h => (by cases h), hc⟩
          | .panic => exact absurd rfl hp
        obtain ⟨k1, k2⟩ := key _ rfl
        rw [h.stable M M' bs hst (by rw [hd]; exact fun h => by cases h) (by rw [hd]; dsimp only; omega), hd]
        dsimp only
        rw [if_neg hk, if_neg hk, ih _ _ r k1 (by omega)]
    | (c, .err e) =>
      rw [hd] at hc
      rw [h.stable M M' bs hst (by rw [hd]; exact fun h => by cases h) (by rw [hd]; exact hc), hd]
    | (c, .panic) =>
      rw [hd] at hp
      exact absurd rfl hp

/-- A vector of `n` elements, reserved or growing. -/
theorem Fair.vec {d : Met α} {d' : Dec α} {size : Nat} (hs : size ≤ S) (h : Fair A S 1 d d') (hn : n ≤ 2 ^ 64) :
    Fair A S 0 (metVec A size d n) (Dec.reserve n >>= fun _ => decodeN d' n) := by
  unfold metVec
  split
  · next hg =>
    refine ⟨fun M bs a r hr => ?_, fun _ M bs => ?_, fun M bs hb => ?_, fun M M' bs hst hp hc => h.push_stable M M' hst n 0 0 bs hp hc⟩
    · obtain ⟨h1, h2⟩ := (h.push_cost hg hs M n 0 0 0 bs (.zero _)).2 a r hr
      rw [Nat.zero_mul, Nat.zero_add, Nat.zero_add] at h2
      exact ⟨h1, h2⟩
    · have h1 := (h.push_cost hg hs M n 0 0 0 bs (.zero _)).1
      rwa [Nat.zero_mul, Nat.zero_add, Nat.zero_add] at h1
    · have hb' : S * (2 * (0 + bs.length) + 8) ≤ M.bytes := by
        unfold Alloc.ample at hb
        rw [if_pos hg] at hb
        rw [Nat.zero_add]
        exact hb
      rw [h.push_same hg hs M n 0 0 0 bs (.zero _) hb', Dec.bind_def, Dec.reserve, if_pos hn]
  · next hg => exact Fair.reserved (by simpa using hg) hs h hn

theorem readExact_used (k : Nat) (lim : Lim) (bs : List UInt8) (a : Arr k) (r : List UInt8) (h : readExact k lim bs = .ok (a, r)) : r.length + k ≤ bs.length := by
  unfold readExact at h
  split at h
  · cases h
    rw [List.length_drop]
    omega
  · cases h

/-- A decoder that asks for nothing and reads at least `n` bytes. -/
structure Unasked (n : Nat) (d : Dec α) : Prop where
  limit : ∀ lim lim' bs, d lim bs = d lim' bs
  used : ∀ lim bs a r, d lim bs = .ok (a, r) → r.length + n ≤ bs.length

theorem Unasked.fair {d : Dec α} (h : Unasked n d) : Fair A S n (.quiet d) d := Fair.quiet h.limit h.used

theorem Unasked.weaken {d : Dec α} (h : Unasked n d) (hm : m ≤ n) : Unasked m d :=
  ⟨h.limit, fun lim bs a r hr => by have := h.used lim bs a r hr; omega⟩

theorem Unasked.pure (a : α) : Unasked 0 (Pure.pure a : Dec α) := ⟨fun _ _ _ => rfl, fun _ _ _ _ h => by cases h; exact Nat.le_refl _⟩

theorem Unasked.fail (e : Err) : Unasked n (Dec.fail e : Dec α) := ⟨fun _ _ _ => rfl, fun _ _ _ _ h => by cases h⟩

theorem Unasked.crash : Unasked n (Dec.crash : Dec α) := ⟨fun _ _ _ => rfl, fun _ _ _ _ h => by cases h⟩

theorem Unasked.bind {d : Dec α} {f : α → Dec β} (h : Unasked n d) (hf : ∀ a, Unasked m (f a)) : Unasked (n + m) (d >>= f) where
  limit lim lim' bs := by
    rw [Dec.bind_def, Dec.bind_def, h.limit lim lim']
    match d lim' bs with
    | .ok (a, r) => exact (hf a).limit _ _ _
    | .err e => rfl
    | .panic => rfl
  used lim bs b r hr := by
    rw [Dec.bind_def] at hr
    match hd : d lim bs with
    | .ok (a, r') =>
      rw [hd] at hr
      have h1 := h.used lim bs a r' hd
      have h2 := (hf a).used lim r' b r hr
      omega
    | .err e => rw [hd] at hr; cases hr
    | .panic => rw [hd] at hr; cases hr

theorem Unasked.map {d : Dec α} (h : Unasked n d) (f : α → β) : Unasked n (d >>= fun a => Pure.pure (f a)) := h.bind fun _ => Unasked.pure _

theorem Unasked.ite {c : Prop} [Decidable c] {d e : Dec α} (h : Unasked n d) (h' : Unasked n e) : Unasked n (if c then d else e) := by
  split
  · exact h
  · exact h'

theorem Unasked.readExact (k : Nat) : Unasked k (Verif.readExact k) := ⟨fun _ _ _ => rfl, readExact_used k⟩

theorem Unasked.mapErr {d : Dec α} (h : Unasked n d) (e : Err) : Unasked n (d.mapErr e) where
  limit lim lim' bs := by unfold Dec.mapErr; rw [h.limit lim lim']
  used lim bs a r hr := by
    unfold Dec.mapErr at hr
    match hd : d lim bs with
    | .ok x => rw [hd] at hr; cases hr; exact h.used lim bs _ _ hd
    | .err e => rw [hd] at hr; cases hr
    | .panic => rw [hd] at hr; cases hr

theorem Unasked.num (w : Nat) : Unasked 8 (numDecode w) := (Unasked.readExact 8).map _
theorem Unasked.u8 : Unasked 1 (dec v : Dec UInt8) := (Unasked.readExact 1).map _
theorem Unasked.bool : Unasked 1 (dec v : Dec Bool) := Unasked.bind (m := 0) Unasked.u8 fun _ => Unasked.ite (Unasked.pure _) (Unasked.ite (Unasked.pure _) (Unasked.fail _))
theorem Unasked.arr (k : Nat) : Unasked k (dec v : Dec (Arr k)) := Unasked.readExact k

theorem Unasked.currency : Unasked 1 (dec v : Dec Currency) := by
  cases v with
  | v1 =>
    refine Unasked.weaken (n := 8 + 0) (Unasked.bind (Unasked.num 64) fun len => ?_) (by omega)
    exact Unasked.ite (Unasked.fail _) (((Unasked.readExact _).map _).weaken (Nat.zero_le _))
  | v2 => exact ((Unasked.readExact 16).map _).weaken (by omega)

theorem Unasked.slots {d : Dec α} (h : Unasked 0 d) (present : Nat → Bool) (a : α) (k : Nat) : ∀ i, Unasked 0 (decodeSlots present d a i k) := by
  induction k with
  | zero => exact fun i => Unasked.pure _
  | succ k ih =>
    intro i
    exact Unasked.bind (n := 0) (m := 0) (Unasked.ite h (Unasked.pure _)) fun _ => (ih (i + 1)).map _

/-- A type whose decoder with account is fair to the decoder without. -/
class Fairly (v : Ver) (α : Type) [Codec v α] [Metered v α] : Prop where
  fairly : ∀ A S, A.within S → Fair A S 1 (met v A : Met α) (dec v)

/-- A type that occurs in vectors and is not larger than the largest. -/
class Sized (α : Type) [ElemSize α] : Prop where
  le : ∀ A S, A.within S → ElemSize.size α A ≤ S

instance : Sized UInt8 := ⟨fun _ _ h => Nat.le_trans (Nat.le_of_ble_eq_true rfl) h.1⟩
instance : Sized U64 := ⟨fun _ _ h => Nat.le_trans (Nat.le_of_ble_eq_true rfl) h.1⟩
instance : Sized Currency := ⟨fun _ _ h => Nat.le_trans (Nat.le_of_ble_eq_true rfl) h.1⟩
instance : Sized (Arr 32) := ⟨fun _ _ h => Nat.le_trans (Nat.le_of_ble_eq_true rfl) h.1⟩
instance : Sized (Arr 64) := ⟨fun _ _ h => Nat.le_trans (Nat.le_of_ble_eq_true rfl) h.1⟩
instance : Sized (List α) := ⟨fun _ _ h => Nat.le_trans (show 24 ≤ 64 by decide) h.1⟩
instance : Sized SiacoinOutput := ⟨fun _ _ h => h.2 _⟩
instance : Sized SiafundOutput := ⟨fun _ _ h => h.2 _⟩
instance : Sized UnlockKey := ⟨fun _ _ h => h.2 _⟩
instance : Sized SpendPolicy := ⟨fun _ _ h => h.2 _⟩
instance : Sized V1.SiacoinInput := ⟨fun _ _ h => h.2 _⟩
instance : Sized V1.SiafundInput := ⟨fun _ _ h => h.2 _⟩
instance : Sized V1.FileContract := ⟨fun _ _ h => h.2 _⟩
instance : Sized V1.FileContractRevision := ⟨fun _ _ h => h.2 _⟩
instance : Sized V1.StorageProof := ⟨fun _ _ h => h.2 _⟩
instance : Sized V1.TransactionSignature := ⟨fun _ _ h => h.2 _⟩
instance : Sized V1.Transaction := ⟨fun _ _ h => h.2 _⟩
instance : Sized V2.SiacoinInput := ⟨fun _ _ h => h.2 _⟩
instance : Sized V2.SiafundInput := ⟨fun _ _ h => h.2 _⟩
instance : Sized V2.FileContract := ⟨fun _ _ h => h.2 _⟩
instance : Sized V2.FileContractRevision := ⟨fun _ _ h => h.2 _⟩
instance : Sized V2.FileContractResolution := ⟨fun _ _ h => h.2 _⟩
instance : Sized V2.Attestation := ⟨fun _ _ h => h.2 _⟩

instance : Fairly v UInt8 := ⟨fun _ _ _ => Unasked.u8.fair⟩
instance : Fairly v Bool := ⟨fun _ _ _ => Unasked.bool.fair⟩
instance : Fairly v U64 := ⟨fun _ _ _ => ((Unasked.num 64).weaken (by omega)).fair⟩
instance {n : Nat} : Fairly v (Arr (n + 1)) := ⟨fun _ _ _ => ((Unasked.arr _).weaken (by omega)).fair⟩
instance : Fairly v Currency := ⟨fun _ _ _ => Unasked.currency.fair⟩

theorem Unasked.dateTime : Unasked 1 (dec v : Dec DateTime) :=
  Unasked.weaken (n := 8 + 0) (Unasked.bind (Unasked.num 64) fun b => by
    cases DateTime.fromUnix b.toInt with
    | some t => exact Unasked.pure _
    | none => exact Unasked.crash) (by omega)

theorem Unasked.duration : Unasked 1 (dec v : Dec Duration) :=
  Unasked.weaken (n := 8 + 0) (Unasked.bind (Unasked.num 64) fun _ => Unasked.ite (Unasked.fail _) (Unasked.pure _)) (by omega)

theorem Unasked.work : Unasked 1 (dec v : Dec Work) := by
  cases v with
  | v1 => exact ((Unasked.readExact 32).map _).weaken (by omega)
  | v2 => exact (((Unasked.readExact 32).mapErr _).map _).weaken (by omega)

theorem Unasked.accumulator : Unasked 1 (dec v : Dec ElementAccumulator) :=
  Unasked.weaken (n := 8 + 0) (Unasked.bind (Unasked.num 64) fun _ => (Unasked.slots ((Unasked.arr 32).weaken (Nat.zero_le _)) _ _ _ _).map _) (by omega)

theorem Unasked.pair [Codec v α] [Codec v β] (h : Unasked n (dec v : Dec α)) (h' : Unasked m (dec v : Dec β)) : Unasked (n + m) (dec v : Dec (α × β)) :=
  h.bind fun _ => h'.map _

instance : Fairly v DateTime := ⟨fun _ _ _ => Unasked.dateTime.fair⟩
instance : Fairly v Duration := ⟨fun _ _ _ => Unasked.duration.fair⟩
instance : Fairly v Work := ⟨fun _ _ _ => Unasked.work.fair⟩

instance : Fairly v SiafundOutput where
  fairly _ _ _ := by
    refine Unasked.fair ?_
    cases v with
    | v1 =>
      refine Unasked.bind (m := 0) Unasked.currency fun c => ?_
      split
      · exact Unasked.fail _
      · exact Unasked.weaken (Unasked.bind (Unasked.arr 32) fun _ => Unasked.currency.map _) (Nat.zero_le _)
    | v2 => exact Unasked.weaken (n := 8 + 32) (Unasked.bind (Unasked.num 64) fun _ => (Unasked.arr 32).map _) (by omega)

instance : Fairly v ElementAccumulator := ⟨fun _ _ _ => Unasked.accumulator.fair⟩

instance [ElemSize α] [hs : Sized α] [Codec v α] [Metered v α] [h : Fairly v α] : Fairly v (List α) where
  fairly A S hA := Fair.weaken (n := 8 + 0) (Fair.bind (Unasked.num 64).fair fun len => Fair.vec (hs.le A S hA) (h.fairly A S hA) (by
    have := len.isLt
    omega)) (by omega)

instance [Codec v α] [Metered v α] [h : Fairly v α] : Fairly v (Option α) where
  fairly A S hA := Fair.bind (m := 0) Unasked.bool.fair fun has => Fair.ite (((h.fairly A S hA).map _).weaken (by omega)) (Fair.pure _)

instance : Fairly v String where
  fairly A S hA := Fair.bind (m := 0) (Fairly.fairly (α := List UInt8) A S hA) fun buf => by
    cases strOfBytes buf with
    | some s => exact Fair.pure _
    | none => exact Fair.fail _

instance [Codec v α] [Metered v α] [h : Fairly v α] [Codec v β] [Metered v β] [h' : Fairly v β] : Fairly v (α × β) where
  fairly A S hA := Fair.weaken (n := 1 + 1) (Fair.bind (h.fairly A S hA) fun _ => (h'.fairly A S hA).map _) (by omega)

instance (priority := low) [Struct α β] [Codec v β] [Metered v β] [h : Fairly v β] : Fairly v α where
  fairly A S hA := (h.fairly A S hA).map _

instance : Fairly v ChainIndex := inferInstance
instance : Fairly v SiacoinOutput := inferInstance
instance : Fairly v StateElement := inferInstance
instance : Fairly v UnlockKey := inferInstance
instance : Fairly v UnlockConditions := inferInstance
instance : Fairly v V1.SiacoinInput := inferInstance
instance : Fairly v V1.SiafundInput := inferInstance
instance : Fairly v V1.FileContract := inferInstance
instance : Fairly v V1.FileContractRevision := inferInstance
instance : Fairly v V1.StorageProof := inferInstance
instance : Fairly v V1.CoveredFields := inferInstance
instance : Fairly v V1.TransactionSignature := inferInstance
instance : Fairly v V1.Transaction := inferInstance
instance : Fairly v Block := inferInstance

theorem SpendPolicy.fair_policy (hA : A.within S) : ∀ k, Fair A S 1 (SpendPolicy.metPolicy A k) (SpendPolicy.decodePolicy k) := by
  intro k
  induction k with
  | zero => exact Fair.crash
  | succ k ih =>
    unfold SpendPolicy.metPolicy SpendPolicy.decodePolicy
    refine Fair.bind (n := 1) (m := 0) Unasked.u8.fair fun ty => ?_
    refine Fair.ite (((Unasked.num 64).fair.map _).weaken (Nat.zero_le _)) ?_
    refine Fair.ite ?_ ?_
    · refine Fair.weaken (n := 8 + 0) (Fair.bind (Unasked.num 64).fair fun secs => ?_) (Nat.zero_le _)
      cases DateTime.fromUnix secs.toInt with
      | some t => exact Fair.pure _
      | none => exact Fair.fail _
    refine Fair.ite (((Fairly.fairly (v := .v2) (α := PublicKey) A S hA).map _).weaken (Nat.zero_le _)) ?_
    refine Fair.ite (((Unasked.arr 32).fair.map _).weaken (Nat.zero_le _)) ?_
    refine Fair.ite ?_ ?_
    · refine Fair.weaken (n := 1 + (1 + 0)) (Fair.bind Unasked.u8.fair fun of => Fair.bind Unasked.u8.fair fun n => ?_) (Nat.zero_le _)
      have h := (Fair.vec (Sized.le (α := SpendPolicy) A S hA) ih (n := n.toNat) (by have := n.toNat_lt; omega)).map (SpendPolicy.threshold of)
      rw [Dec.bind_assoc] at h
      exact h
    refine Fair.ite (((Unasked.arr 32).fair.map _).weaken (Nat.zero_le _)) ?_
    exact Fair.ite (((Fairly.fairly (v := .v2) (α := UnlockConditions) A S hA).map _).weaken (Nat.zero_le _)) (Fair.fail _)

instance : Fairly v SpendPolicy where
  fairly A S hA := by
    refine Fair.bind (n := 1) (m := 0) Unasked.u8.fair fun ver => Fair.ite (Fair.fail _) ?_
    have h := fun k => (SpendPolicy.fair_policy hA k).weaken (Nat.zero_le 1)
    refine ⟨fun M => (h M.stack).cost M, fun hg M => (h M.stack).all hg M, fun M => (h M.stack).same M, fun M M' bs hs hp hc => ?_⟩
    show SpendPolicy.metPolicy A M.stack M bs = _
    rw [hs]
    exact (h M'.stack).stable M M' bs hs hp hc

instance : Fairly v SatisfiedPolicy := inferInstance
instance : Fairly v V2.Attestation := inferInstance
instance : Fairly v V2.FileContract := inferInstance
instance : Fairly v V2.SiacoinElement := inferInstance
instance : Fairly v V2.SiafundElement := inferInstance
instance : Fairly v V2.FileContractElement := inferInstance
instance : Fairly v V2.ChainIndexElement := inferInstance
instance : Fairly v V2.SiacoinInput := inferInstance
instance : Fairly v V2.SiafundInput := inferInstance
instance : Fairly v V2.FileContractRevision := inferInstance
instance : Fairly v V2.FileContractRenewal := inferInstance
instance : Fairly v V2.StorageProof := inferInstance

instance : Fairly v V2.FileContractResolution where
  fairly A S hA := by
    refine Fair.weaken (n := 1 + (1 + 0)) (Fair.bind (Fairly.fairly (α := V2.FileContractElement) A S hA) fun _ =>
      Fair.bind Unasked.u8.fair fun tag => ?_) (by omega)
    refine Fair.ite (((Fairly.fairly (α := V2.FileContractRenewal) A S hA).map _).weaken (Nat.zero_le _)) ?_
    refine Fair.ite (((Fairly.fairly (α := V2.StorageProof) A S hA).map _).weaken (Nat.zero_le _)) ?_
    exact Fair.ite (Fair.pure _) (Fair.fail _)

theorem Fair.field {d : Met α} {d' : Dec α} (h : Fair A S n d d') (fields mask : U64) (a : α) :
    Fair A S 0 (metField fields mask d a) (V2.Transaction.decodeField fields mask d' a) :=
  Fair.ite (h.weaken (Nat.zero_le _)) (Fair.pure _)

instance : Fairly v V2.Transaction where
  fairly A S hA := by
    refine Fair.bind (n := 1) (m := 0) Unasked.u8.fair fun ver => Fair.ite (Fair.fail _) ?_
    refine Fair.weaken (n := 8 + 0) (Fair.bind (Unasked.num 64).fair fun fields => ?_) (Nat.zero_le _)
    refine Fair.bind (n := 0) (m := 0) (Fair.field (Fairly.fairly (α := List V2.SiacoinInput) A S hA) _ _ _) fun _ => ?_
    refine Fair.bind (n := 0) (m := 0) (Fair.field (Fairly.fairly (α := List SiacoinOutput) A S hA) _ _ _) fun _ => ?_
    refine Fair.bind (n := 0) (m := 0) (Fair.field (Fairly.fairly (α := List V2.SiafundInput) A S hA) _ _ _) fun _ => ?_
    refine Fair.bind (n := 0) (m := 0) (Fair.field (Fairly.fairly (α := List SiafundOutput) A S hA) _ _ _) fun _ => ?_
    refine Fair.bind (n := 0) (m := 0) (Fair.field (Fairly.fairly (α := List V2.FileContract) A S hA) _ _ _) fun _ => ?_
    refine Fair.bind (n := 0) (m := 0) (Fair.field (Fairly.fairly (α := List V2.FileContractRevision) A S hA) _ _ _) fun _ => ?_
    refine Fair.bind (n := 0) (m := 0) (Fair.field (Fairly.fairly (α := List V2.FileContractResolution) A S hA) _ _ _) fun _ => ?_
    refine Fair.bind (n := 0) (m := 0) (Fair.field (Fairly.fairly (α := List V2.Attestation) A S hA) _ _ _) fun _ => ?_
    refine Fair.bind (n := 0) (m := 0) (Fair.field (Fairly.fairly (α := List UInt8) A S hA) _ _ _) fun _ => ?_
    refine Fair.bind (n := 0) (m := 0) (Fair.field ((Fairly.fairly (α := Address) A S hA).map _) _ _ _) fun _ => ?_
    exact Fair.map (Fair.field Unasked.currency.fair _ _ _) _

section

variable [Codec v α] [Metered v α] [h : Fairly v α]

theorem accounts : Accounts v α := fun A S M bs hg hA hM =>
  (h.fairly A S hA).same M bs (by unfold Alloc.ample; rw [if_neg (by simp [hg])]; exact hM)

omit [Codec v α] h in
theorem costsWhatItIs [Codec v α] [h : Fairly v α] : CostsWhatItIs v α := by
  intro A S M bs rest a hg hA hr
  obtain ⟨h1, h2⟩ := (h.fairly A S hA).cost M bs a rest hr
  have hk : A.rate S = S := if_neg (by simp [hg])
  rw [hk] at h2
  rw [Nat.mul_sub]
  rw [Nat.mul_add] at h2
  omega

theorem decodesInRoom : DecodesInRoom v α := by
  intro A S M bs rest a hg hA hd hM
  have hM' := accounts (v := v) (α := α) A S ⟨S * 2 ^ 64, M.stack⟩ bs hg hA (Nat.le_refl _)
  rw [hd] at hM'
  have hc := costsWhatItIs (v := v) (α := α) A S ⟨S * 2 ^ 64, M.stack⟩ bs rest a hg hA hM'
  rw [(h.fairly A S hA).stable M ⟨S * 2 ^ 64, M.stack⟩ bs rfl (by rw [hM']; exact fun h => by cases h) (Nat.le_trans hc hM)]
  exact hM'

omit [Codec v α] h in
theorem costsByInput [Codec v α] [h : Fairly v α] : CostsByInput v α := by
  intro A S M bs hg hA
  have := (h.fairly A S hA).all hg M bs
  rwa [Alloc.rate_grow hg] at this

theorem growsToTheSame : GrowsToTheSame v α := fun A S M bs hg hA hM =>
  (h.fairly A S hA).same M bs (by unfold Alloc.ample; rw [if_pos hg]; exact hM)

end

theorem Met.bind_stop {p : Prop} [Decidable p] {d : Met α} {f : α → Met β} {M : Machine} {bs : List UInt8} {c : Nat} {e : Err}
    (h : d M bs = (c, if p then .err e else .panic)) : (d >>= f) M bs = (c, if p then .err e else .panic) := by
  rw [Met.bind_def, h]
  by_cases hp : p
  · rw [if_pos hp, if_pos hp]
  · rw [if_neg hp, if_neg hp]

theorem Met.bind_err {d : Met α} {f : α → Met β} {M : Machine} {bs : List UInt8} {c : Nat} {e : Err}
    (h : d M bs = (c, .err e)) : (d >>= f) M bs = (c, .err e) := by
  rw [Met.bind_def, h]

theorem Met.bind_run {d : Met α} {f : α → Met β} {M : Machine} {bs r : List UInt8} {a : α} (h : d M bs = (0, .ok (a, r))) : (d >>= f) M bs = f a M r := by
  rw [Met.bind_def, h]
  show (0 + _, _) = _
  rw [Nat.zero_add]

/-- A length prefix with nothing after it. -/
theorem met_list_short [ElemSize α] [Metered v α] {k : Nat} {M : Machine} (hg : A.grow = false) (h0 : 0 < k) (hk : k < 2 ^ 64)
    (hd : (met v A : Met α) M [] = (0, .err .io)) :
    (met v A : Met (List α)) M (leBytes 8 k) =
      (k * ElemSize.size α A, if k * ElemSize.size α A ≤ M.bytes then .err .io else .panic) := by
  have hu : (met v A : Met U64) M (leBytes 8 k) = (0, .ok (BitVec.ofNat 64 k, [])) := by
    show ((0 : Nat), numDecode 64 ⟨0, M.stack⟩ (leBytes 8 k)) = _
    have e : numDecode 64 ⟨0, M.stack⟩ (leBytes 8 k) = .ok (BitVec.ofNat 64 (leVal (leBytes 8 k)), []) := by
      unfold numDecode
      rw [Dec.bind_def, readExact, dif_pos (by rw [leBytes_length]; omega)]
      dsimp only
      rw [show (leBytes 8 k).take 8 = leBytes 8 k from List.take_of_length_le (by rw [leBytes_length]; omega),
        show (leBytes 8 k).drop 8 = [] from List.drop_of_length_le (by rw [leBytes_length]; omega)]
      rfl
    rw [e, leVal_leBytes, Nat.mod_eq_of_lt (by omega)]
  show (met v A >>= fun len : U64 => metVec A (ElemSize.size α A) (met v A) len.toNat) M (leBytes 8 k) = _
  rw [Met.bind_def, hu]
  dsimp only
  rw [BitVec.toNat_ofNat, Nat.mod_eq_of_lt hk, metVec, if_neg (by simp [hg])]
  obtain ⟨j, rfl⟩ : ∃ j, k = j + 1 := ⟨k - 1, by omega⟩
  by_cases hb : (j + 1) * ElemSize.size α A ≤ M.bytes
  · rw [Met.ask_bind_ok hb, if_pos hb, metN, Met.bind_def, hd]
    simp
  · rw [Met.ask_bind_panic hb, if_neg hb]
    simp

end Verif
