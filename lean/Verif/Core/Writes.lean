import Verif.Core.Lemmas

/-! Reasoning about code that fills a matrix entry by entry. -/

namespace Verif

open Outcome Finset

variable {K : Type}

/-- Started on an `r × c` matrix satisfying `Pre`, the code `f` ends normally with an `r × c` matrix satisfying `Pre`; it writes
`val x y` into all entries `(x, y)` in `S` and leaves all others alone. -/
def Writes (r c : Nat) (Pre : Mat K → Prop) (f : Mat K → Outcome (Mat K)) (S : Nat → Nat → Prop)
    (val : Nat → Nat → K) : Prop :=
  ∀ M, M.r = r → M.c = c → Pre M →
    ∃ M', f M = ok M' ∧ M'.r = r ∧ M'.c = c ∧ Pre M' ∧
      ∀ x y, (S x y → M'.m x y = val x y) ∧ (¬ S x y → M'.m x y = M.m x y)

theorem Writes.skip {r c : Nat} {Pre : Mat K → Prop} {val : Nat → Nat → K} :
    Writes r c Pre (fun M => ok M) (fun _ _ => False) val := by
  intro M hr hc hp
  exact ⟨M, rfl, hr, hc, hp, fun x y => ⟨fun h => h.elim, fun _ => rfl⟩⟩

theorem Writes.set {r c : Nat} {Pre : Mat K → Prop} {val : Nat → Nat → K} {p q : Nat} {a : K}
    (hp : p < r) (hq : q < c) (ha : a = val p q)
    (hpre : ∀ M : Mat K, M.r = r → M.c = c → Pre M →
      Pre ⟨M.r, M.c, fun x y => if x = p ∧ y = q then val p q else M.m x y⟩) :
    Writes r c Pre (fun M => M.set p q a) (fun x y => x = p ∧ y = q) val := by
  intro M hr hc hP
  refine ⟨_, Mat.set_ok (by omega) (by omega), hr, hc, ?_, ?_⟩
  · rw [ha]; exact hpre M hr hc hP
  · intro x y
    constructor
    · rintro ⟨rfl, rfl⟩; simp [ha]
    · intro h; simp [h]

theorem Writes.set' {r c : Nat} {val : Nat → Nat → K} {p q : Nat} {a : K}
    (hp : p < r) (hq : q < c) (ha : a = val p q) :
    Writes r c (fun _ => True) (fun M => M.set p q a) (fun x y => x = p ∧ y = q) val :=
  Writes.set hp hq ha (fun _ _ _ _ => trivial)

theorem Writes.seq {r c : Nat} {Pre : Mat K → Prop} {val : Nat → Nat → K} {f g : Mat K → Outcome (Mat K)}
    {S T : Nat → Nat → Prop} (hf : Writes r c Pre f S val) (hg : Writes r c Pre g T val) :
    Writes r c Pre (fun M => f M >>= g) (fun x y => S x y ∨ T x y) val := by
  intro M hr hc hP
  obtain ⟨M1, h1, hr1, hc1, hP1, hv1⟩ := hf M hr hc hP
  obtain ⟨M2, h2, hr2, hc2, hP2, hv2⟩ := hg M1 hr1 hc1 hP1
  refine ⟨M2, by dsimp only; rw [h1, ok_bind, h2], hr2, hc2, hP2, ?_⟩
  intro x y
  constructor
  · intro h
    by_cases hT : T x y
    · exact (hv2 x y).1 hT
    · rw [(hv2 x y).2 hT]
      exact (hv1 x y).1 (h.resolve_right hT)
  · intro h
    push Not at h
    rw [(hv2 x y).2 h.2, (hv1 x y).2 h.1]

theorem Writes.loop {r c : Nat} {Pre : Mat K → Prop} {val : Nat → Nat → K} {body : Nat → Mat K → Outcome (Mat K)}
    {S : Nat → Nat → Nat → Prop} {n : Nat} (h : ∀ i, i < n → Writes r c Pre (body i) (S i) val) :
    Writes r c Pre (fun M => loop body n M) (fun x y => ∃ i, i < n ∧ S i x y) val := by
  induction n with
  | zero =>
    intro M hr hc hP
    exact ⟨M, rfl, hr, hc, hP, fun x y => ⟨fun ⟨i, hi, _⟩ => by omega, fun _ => rfl⟩⟩
  | succ n ih =>
    have h1 := Writes.seq (ih (fun i hi => h i (by omega))) (h n (by omega))
    intro M hr hc hP
    obtain ⟨M', e, hr', hc', hP', hv⟩ := h1 M hr hc hP
    refine ⟨M', e, hr', hc', hP', fun x y => ?_⟩
    have hiff : (∃ i, i < n + 1 ∧ S i x y) ↔ (∃ i, i < n ∧ S i x y) ∨ S n x y := by
      constructor
      · rintro ⟨i, hi, hs⟩
        rcases Nat.lt_succ_iff_lt_or_eq.1 hi with hi | rfl
        · exact Or.inl ⟨i, hi, hs⟩
        · exact Or.inr hs
      · rintro (⟨i, hi, hs⟩ | hs)
        · exact ⟨i, by omega, hs⟩
        · exact ⟨n, by omega, hs⟩
    dsimp only
    rw [hiff]
    exact hv x y

theorem Writes.loopFrom {r c a : Nat} {Pre : Mat K → Prop} {val : Nat → Nat → K} {body : Nat → Mat K → Outcome (Mat K)}
    {S : Nat → Nat → Nat → Prop} {n : Nat} (h : ∀ i, a ≤ i → i < a + n → Writes r c Pre (body i) (S i) val) :
    Writes r c Pre (fun M => loopFrom a body n M) (fun x y => ∃ i, i < n ∧ S (a + i) x y) val :=
  Writes.loop (fun i hi => h (a + i) (by omega) (by omega))

theorem Writes.congr {r c : Nat} {Pre : Mat K → Prop} {val : Nat → Nat → K} {f g : Mat K → Outcome (Mat K)}
    {S T : Nat → Nat → Prop} (hf : Writes r c Pre f S val)
    (hfg : ∀ M, M.r = r → M.c = c → Pre M → g M = f M) (hST : ∀ x y, S x y ↔ T x y) :
    Writes r c Pre g T val := by
  intro M hr hc hP
  obtain ⟨M', e, h⟩ := hf M hr hc hP
  refine ⟨M', by rw [hfg M hr hc hP]; exact e, ?_⟩
  simpa only [hST] using h

/-- the entries in `S` already have their values -/
def Known (S : Nat → Nat → Prop) (val : Nat → Nat → K) (M : Mat K) : Prop := ∀ x y, S x y → M.m x y = val x y

theorem Writes.seqKnown {r c : Nat} {Pre : Mat K → Prop} {val : Nat → Nat → K} {f g : Mat K → Outcome (Mat K)}
    {S T : Nat → Nat → Prop} (hf : Writes r c Pre f S val)
    (hg : Writes r c (fun M => Pre M ∧ Known S val M) g T val) :
    Writes r c Pre (fun M => f M >>= g) (fun x y => S x y ∨ T x y) val := by
  intro M hr hc hP
  obtain ⟨M1, h1, hr1, hc1, hP1, hv1⟩ := hf M hr hc hP
  obtain ⟨M2, h2, hr2, hc2, hP2, hv2⟩ := hg M1 hr1 hc1 ⟨hP1, fun x y h => (hv1 x y).1 h⟩
  refine ⟨M2, by dsimp only; rw [h1, ok_bind, h2], hr2, hc2, hP2.1, ?_⟩
  intro x y
  constructor
  · rintro (h | h)
    · exact hP2.2 x y h
    · exact (hv2 x y).1 h
  · intro h
    rw [(hv2 x y).2 (fun h' => h (Or.inr h')), (hv1 x y).2 (fun h' => h (Or.inl h'))]

theorem Known.set {S : Nat → Nat → Prop} {val : Nat → Nat → K} {M : Mat K} (h : Known S val M) (p q r c : Nat) :
    Known S val ⟨r, c, fun x y => if x = p ∧ y = q then val p q else M.m x y⟩ := by
  intro x y hS
  dsimp only
  by_cases hx : x = p ∧ y = q
  · rw [if_pos hx, hx.1, hx.2]
  · rw [if_neg hx, h x y hS]

/-- Two nested loops that replace every entry by a function of its old value. -/
theorem loop2_map (r c : Nat) (f : Nat → Nat → K → K) (body : Nat → Nat → Mat K → Outcome (Mat K))
    (hb : ∀ i j (M : Mat K), i < r → j < c → M.r = r → M.c = c →
      body i j M = M.set i j (f i j (M.m i j))) (M0 : Mat K) (hr : M0.r = r) (hc : M0.c = c) :
    ∃ M, loop (fun i M => loop (fun j M => body i j M) c M) r M0 = ok M ∧ M.r = r ∧ M.c = c ∧
      ∀ x y, x < r → y < c → M.m x y = f x y (M0.m x y) := by
  obtain ⟨M, h, h1, h2, h3⟩ := loop_inv (n := r) (s := M0)
    (body := fun i M => loop (fun j M => body i j M) c M)
    (fun i M => M.r = r ∧ M.c = c ∧ ∀ x y, x < r → y < c →
      M.m x y = if x < i then f x y (M0.m x y) else M0.m x y)
    ⟨hr, hc, by simp⟩
    (by
      rintro i M hi ⟨e1, e2, e3⟩
      obtain ⟨M', k, k1, k2, k3⟩ := loop_inv (n := c) (s := M) (body := fun j M => body i j M)
        (fun j M => M.r = r ∧ M.c = c ∧ ∀ x y, x < r → y < c →
          M.m x y = if x < i ∨ (x = i ∧ y < j) then f x y (M0.m x y) else M0.m x y)
        ⟨e1, e2, by simpa using e3⟩
        (by
          rintro j N hj ⟨g1, g2, g3⟩
          refine ⟨_, (hb i j N hi hj g1 g2).trans (Mat.set_ok (by omega) (by omega)), g1, g2, ?_⟩
          intro x y hx hy
          dsimp only
          by_cases hxy : x = i ∧ y = j
          · obtain ⟨rfl, rfl⟩ := hxy
            rw [if_pos ⟨rfl, rfl⟩, if_pos (Or.inr ⟨rfl, by omega⟩), g3 x y hx hy, if_neg (by omega)]
          · rw [if_neg hxy, g3 x y hx hy]
            congr 1
            apply propext
            constructor <;> intro h <;> omega)
      refine ⟨M', k, k1, k2, ?_⟩
      intro x y hx hy
      rw [k3 x y hx hy]
      congr 1
      apply propext
      constructor <;> intro h <;> omega)
  refine ⟨M, h, h1, h2, fun x y hx hy => ?_⟩
  rw [h3 x y hx hy, if_pos hx]

/-! ### flattened indices -/

theorem flat_lt {c E i e : Nat} (hi : i < c) (he : e < E) : i + e * c < c * E := by
  have : (e + 1) * c ≤ E * c := Nat.mul_le_mul_right c he
  rw [Nat.add_mul, Nat.one_mul] at this
  rw [Nat.mul_comm c E]
  omega

theorem flat_mod {c i e : Nat} (hi : i < c) : (i + e * c) % c = i := by
  rw [Nat.add_mul_mod_self_right, Nat.mod_eq_of_lt hi]

theorem flat_div {c i e : Nat} (hi : i < c) : (i + e * c) / c = e := by
  rw [Nat.add_mul_div_right _ _ (by omega), Nat.div_eq_of_lt hi, Nat.zero_add]

theorem flat_inj {c i e i' e' : Nat} (hi : i < c) (hi' : i' < c) : i + e * c = i' + e' * c ↔ i = i' ∧ e = e' := by
  constructor
  · intro h
    have h1 := congrArg (· % c) h
    have h2 := congrArg (· / c) h
    simp only [flat_mod hi, flat_mod hi', flat_div hi, flat_div hi'] at h1 h2
    exact ⟨h1, h2⟩
  · rintro ⟨rfl, rfl⟩; rfl

theorem flat_surj {c E x : Nat} (hx : x < c * E) : ∃ i e, i < c ∧ e < E ∧ x = i + e * c := by
  have hc : 0 < c := by
    rcases Nat.eq_zero_or_pos c with h | h
    · subst h; simp at hx
    · exact h
  refine ⟨x % c, x / c, Nat.mod_lt _ hc, ?_, ?_⟩
  · rw [Nat.div_lt_iff_lt_mul hc, Nat.mul_comm]; exact hx
  · rw [Nat.mul_comm]; exact (Nat.mod_add_div x c).symm

theorem sum_flat [AddCommMonoid K] (c E : Nat) (f : Nat → K) :
    ∑ q ∈ range (c * E), f q = ∑ e ∈ range E, ∑ i ∈ range c, f (i + e * c) := by
  induction E with
  | zero => simp
  | succ E ih =>
    rw [Nat.mul_succ, sum_range_add, ih, sum_range_succ]
    congr 1
    exact sum_congr rfl (fun i _ => by rw [Nat.mul_comm c E, Nat.add_comm])

end Verif
