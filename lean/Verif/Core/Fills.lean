import Verif.Core.Arr

/-!
# Reasoning about code that fills or updates tables entry by entry

`good s` says that the state `s` (a vector, matrix, tensor, or several of them) has the right shape, `v s x` is its entry `x`.
-/

namespace Verif

open Outcome Finset

variable {σ ι K : Type} {good : σ → Prop} {v : σ → ι → K}

/-- Started on a state whose entries in `S0` have the values `val`, the code `f` ends normally; it writes `val x` into all entries `x`
in `S` and leaves all others alone. -/
def Fills (good : σ → Prop) (v : σ → ι → K) (S0 : ι → Prop) (f : σ → Outcome σ) (S : ι → Prop) (val : ι → K) : Prop :=
  ∀ s, good s → (∀ x, S0 x → v s x = val x) → ∃ s', f s = ok s' ∧ good s' ∧
    ∀ x, (S x → v s' x = val x) ∧ (¬ S x → v s' x = v s x)

namespace Fills

variable {S0 S T : ι → Prop} {f g : σ → Outcome σ} {val : ι → K}

theorem congr (hf : Fills good v S0 f S val) (hfg : ∀ s, good s → (∀ x, S0 x → v s x = val x) → g s = f s)
    (hST : ∀ x, S x ↔ T x) : Fills good v S0 g T val := by
  intro s hs h0
  obtain ⟨s', e, h⟩ := hf s hs h0
  refine ⟨s', by rw [hfg s hs h0]; exact e, ?_⟩
  simpa only [hST] using h

theorem seq (hf : Fills good v S0 f S val) (hg : Fills good v (fun x => S0 x ∨ S x) g T val) :
    Fills good v S0 (fun s => f s >>= g) (fun x => S x ∨ T x) val := by
  intro s hs h0
  obtain ⟨s1, e1, g1, v1⟩ := hf s hs h0
  obtain ⟨s2, e2, g2, v2⟩ := hg s1 g1 (by
    rintro x (h | h)
    · by_cases hS : S x
      · exact (v1 x).1 hS
      · rw [(v1 x).2 hS, h0 x h]
    · exact (v1 x).1 h)
  refine ⟨s2, by dsimp only; rw [e1, ok_bind, e2], g2, fun x => ⟨?_, ?_⟩⟩
  · intro h
    by_cases hT : T x
    · exact (v2 x).1 hT
    · rw [(v2 x).2 hT]
      exact (v1 x).1 (h.resolve_right hT)
  · intro h
    push Not at h
    rw [(v2 x).2 h.2, (v1 x).2 h.1]

theorem loop {body : Nat → σ → Outcome σ} {S : Nat → ι → Prop} {n : Nat}
    (h : ∀ i, i < n → Fills good v (fun x => S0 x ∨ ∃ i', i' < i ∧ S i' x) (body i) (S i) val) :
    Fills good v S0 (fun s => loop body n s) (fun x => ∃ i, i < n ∧ S i x) val := by
  induction n with
  | zero =>
    intro s hs _
    exact ⟨s, rfl, hs, fun x => ⟨fun ⟨i, hi, _⟩ => by omega, fun _ => rfl⟩⟩
  | succ n ih =>
    refine (Fills.seq (ih (fun i hi => h i (by omega))) (h n (by omega))).congr (fun s _ _ => rfl) ?_
    intro x
    constructor
    · rintro (⟨i, hi, hs⟩ | hs)
      · exact ⟨i, by omega, hs⟩
      · exact ⟨n, by omega, hs⟩
    · rintro ⟨i, hi, hs⟩
      rcases Nat.lt_succ_iff_lt_or_eq.1 hi with hi | rfl
      · exact Or.inl ⟨i, hi, hs⟩
      · exact Or.inr hs

theorem loopFrom {a : Nat} {body : Nat → σ → Outcome σ} {S : Nat → ι → Prop} {n : Nat}
    (h : ∀ i, a ≤ i → i < a + n →
      Fills good v (fun x => S0 x ∨ ∃ i', i' < i ∧ a ≤ i' ∧ S i' x) (body i) (S i) val) :
    Fills good v S0 (fun s => loopFrom a body n s) (fun x => ∃ i, a ≤ i ∧ i < a + n ∧ S i x) val := by
  refine (Fills.loop (S := fun i => S (a + i)) (body := fun i => body (a + i)) (n := n) (fun i hi => ?_)).congr
    (fun s _ _ => rfl) ?_
  · intro s hs h0
    refine h (a + i) (by omega) (by omega) s hs ?_
    rintro x (hx | ⟨i', h1, h2, h3⟩)
    · exact h0 x (Or.inl hx)
    · exact h0 x (Or.inr ⟨i' - a, by omega, by rwa [Nat.add_sub_cancel' h2]⟩)
  · intro x
    constructor
    · rintro ⟨i, hi, hs⟩
      exact ⟨a + i, by omega, by omega, hs⟩
    · rintro ⟨i, h1, h2, hs⟩
      exact ⟨i - a, by omega, by rwa [Nat.add_sub_cancel' h1]⟩

end Fills

/-- Started on a state of the right shape, the code `f` ends normally, replaces each entry `x` in `S` by `g x (old value)` and leaves all
others alone. -/
def Maps (good : σ → Prop) (v : σ → ι → K) (f : σ → Outcome σ) (S : ι → Prop) (g : ι → K → K) : Prop :=
  ∀ s, good s → ∃ s', f s = ok s' ∧ good s' ∧ ∀ x, (S x → v s' x = g x (v s x)) ∧ (¬ S x → v s' x = v s x)

namespace Maps

variable {S T : ι → Prop} {f f' : σ → Outcome σ} {g : ι → K → K}

theorem congr (hf : Maps good v f S g) (hfg : ∀ s, good s → f' s = f s) (hST : ∀ x, S x ↔ T x) : Maps good v f' T g := by
  intro s hs
  obtain ⟨s', e, h⟩ := hf s hs
  refine ⟨s', by rw [hfg s hs]; exact e, ?_⟩
  simpa only [hST] using h

theorem congr_val {g' : ι → K → K} (hf : Maps good v f S g) (hg : ∀ x o, S x → g' x o = g x o) : Maps good v f S g' := by
  intro s hs
  obtain ⟨s', e, h1, h2⟩ := hf s hs
  exact ⟨s', e, h1, fun x => ⟨fun hx => by rw [(h2 x).1 hx, hg x _ hx], (h2 x).2⟩⟩

theorem loop {body : Nat → σ → Outcome σ} {S : Nat → ι → Prop} {n : Nat}
    (h : ∀ i, i < n → Maps good v (body i) (S i) g) (hdis : ∀ i j x, i < j → j < n → S i x → ¬ S j x) :
    Maps good v (fun s => loop body n s) (fun x => ∃ i, i < n ∧ S i x) g := by
  induction n with
  | zero =>
    intro s hs
    exact ⟨s, rfl, hs, fun x => ⟨fun ⟨i, hi, _⟩ => by omega, fun _ => rfl⟩⟩
  | succ n ih =>
    intro s hs
    obtain ⟨s1, h1, g1, v1⟩ := ih (fun i hi => h i (by omega)) (fun i j x hij hj => hdis i j x hij (by omega)) s hs
    obtain ⟨s2, h2, g2, v2⟩ := h n (by omega) s1 g1
    dsimp only at h1 ⊢
    refine ⟨s2, by rw [loop_succ, h1, ok_bind, h2], g2, fun x => ⟨?_, ?_⟩⟩
    · rintro ⟨i, hi, hs⟩
      rcases Nat.lt_succ_iff_lt_or_eq.1 hi with hi | rfl
      · rw [(v2 x).2 (hdis i n x hi (by omega) hs), (v1 x).1 ⟨i, hi, hs⟩]
      · rw [(v2 x).1 hs, (v1 x).2 (fun ⟨j, hj, hs'⟩ => hdis j i x hj (by omega) hs' hs)]
    · intro hn
      rw [(v2 x).2 (fun h' => hn ⟨n, by omega, h'⟩), (v1 x).2 (fun ⟨j, hj, hs'⟩ => hn ⟨j, by omega, hs'⟩)]

theorem loopFrom {a : Nat} {body : Nat → σ → Outcome σ} {S : Nat → ι → Prop} {n : Nat}
    (h : ∀ i, a ≤ i → i < a + n → Maps good v (body i) (S i) g)
    (hdis : ∀ i j x, a ≤ i → i < j → j < a + n → S i x → ¬ S j x) :
    Maps good v (fun s => loopFrom a body n s) (fun x => ∃ i, a ≤ i ∧ i < a + n ∧ S i x) g := by
  refine (Maps.loop (S := fun i => S (a + i)) (body := fun i => body (a + i)) (n := n) (fun i hi => h _ (by omega) (by omega))
    (fun i j x hij hj => hdis _ _ x (by omega) (by omega) (by omega))).congr (fun s _ => rfl) ?_
  intro x
  constructor
  · rintro ⟨i, hi, hs⟩
    exact ⟨a + i, by omega, by omega, hs⟩
  · rintro ⟨i, h1, h2, hs⟩
    exact ⟨i - a, by omega, by rwa [Nat.add_sub_cancel' h1]⟩

/-- A loop whose every pass adds to the same entries. -/
theorem accum [AddCommMonoid K] {body : Nat → σ → Outcome σ} {w : Nat → ι → K} {n : Nat}
    (h : ∀ i, i < n → Maps good v (body i) S (fun x o => o + w i x)) :
    Maps good v (fun s => Verif.loop body n s) S (fun x o => o + ∑ i ∈ range n, w i x) := by
  induction n with
  | zero =>
    intro s hs
    exact ⟨s, rfl, hs, fun x => ⟨fun _ => by simp, fun _ => rfl⟩⟩
  | succ n ih =>
    intro s hs
    obtain ⟨s1, h1, g1, v1⟩ := ih (fun i hi => h i (by omega)) s hs
    obtain ⟨s2, h2, g2, v2⟩ := h n (by omega) s1 g1
    dsimp only at h1 ⊢
    refine ⟨s2, by rw [loop_succ, h1, ok_bind, h2], g2, fun x => ⟨fun hx => ?_, fun hx => ?_⟩⟩
    · rw [(v2 x).1 hx, (v1 x).1 hx]; dsimp only; rw [sum_range_succ, add_assoc]
    · rw [(v2 x).2 hx, (v1 x).2 hx]

/-- Two updates of the same entries, one after the other. -/
theorem comp {g' : ι → K → K} (hf : Maps good v f S g) (hf' : Maps good v f' S g') :
    Maps good v (fun s => f s >>= f') S (fun x o => g' x (g x o)) := by
  intro s hs
  obtain ⟨s1, h1, g1, v1⟩ := hf s hs
  obtain ⟨s2, h2, g2, v2⟩ := hf' s1 g1
  refine ⟨s2, by dsimp only; rw [h1, ok_bind, h2], g2, fun x => ⟨fun hx => ?_, fun hx => ?_⟩⟩
  · rw [(v2 x).1 hx, (v1 x).1 hx]
  · rw [(v2 x).2 hx, (v1 x).2 hx]

/-- Updates of disjoint sets of entries. -/
theorem seq (hf : Maps good v f S g) (hf' : Maps good v f' T g) (hdis : ∀ x, S x → ¬ T x) :
    Maps good v (fun s => f s >>= f') (fun x => S x ∨ T x) g := by
  intro s hs
  obtain ⟨s1, h1, g1, v1⟩ := hf s hs
  obtain ⟨s2, h2, g2, v2⟩ := hf' s1 g1
  refine ⟨s2, by dsimp only; rw [h1, ok_bind, h2], g2, fun x => ⟨?_, ?_⟩⟩
  · rintro (hx | hx)
    · rw [(v2 x).2 (hdis x hx), (v1 x).1 hx]
    · rw [(v2 x).1 hx, (v1 x).2 (fun h => hdis x h hx)]
  · intro hx
    push Not at hx
    rw [(v2 x).2 hx.2, (v1 x).2 hx.1]

end Maps

/-! ### single writes -/

section arr

variable {D : ι → Prop} {S0 : ι → Prop} {val : ι → K} {g : ι → K → K}

/-- shape of an array -/
abbrev ArrGood (D : ι → Prop) (A : Arr ι K) : Prop := A.dom = D

theorem Fills.arrSet {p : ι} {a : K} (hp : D p) (ha : a = val p) :
    Fills (ArrGood D) (fun A : Arr ι K => A.v) S0 (fun A => A.set p a) (fun x => x = p) val := by
  classical
  intro A hd _
  refine ⟨_, Arr.set_ok (by rw [show A.dom = D from hd]; exact hp), hd, fun x => ⟨?_, ?_⟩⟩
  · rintro rfl; dsimp only; rw [if_pos rfl, ha]
  · intro h; dsimp only; rw [if_neg h]

theorem Maps.arrSet {p : ι} {u : Arr ι K → K} (hp : D p) (hu : ∀ A : Arr ι K, A.dom = D → u A = g p (A.v p)) :
    Maps (ArrGood D) (fun A : Arr ι K => A.v) (fun A => A.set p (u A)) (fun x => x = p) g := by
  classical
  intro A hd
  refine ⟨_, Arr.set_ok (by rw [show A.dom = D from hd]; exact hp), hd, fun x => ⟨?_, ?_⟩⟩
  · rintro rfl; dsimp only; rw [if_pos rfl, hu A hd]
  · intro h; dsimp only; rw [if_neg h]

end arr

section mat

variable {r c : Nat} {S0 : ℕ × ℕ → Prop} {val : ℕ × ℕ → K} {g : ℕ × ℕ → K → K}

/-- shape of a matrix -/
abbrev MatGood (r c : Nat) (M : Mat K) : Prop := M.r = r ∧ M.c = c

/-- entries of a matrix -/
abbrev matV (M : Mat K) (x : ℕ × ℕ) : K := M.m x.1 x.2

theorem Fills.matSet {p q : Nat} {a : K} (hp : p < r) (hq : q < c) (ha : a = val (p, q)) :
    Fills (MatGood r c) (matV (K := K)) S0 (fun M => M.set p q a) (fun x => x = (p, q)) val := by
  intro M hd _
  refine ⟨_, Mat.set_ok (by rw [hd.1]; exact hp) (by rw [hd.2]; exact hq), hd, fun x => ⟨?_, ?_⟩⟩
  · rintro rfl; exact (if_pos ⟨rfl, rfl⟩).trans ha
  · intro h; exact if_neg (fun h' => h (Prod.ext h'.1 h'.2))

theorem Maps.matSet {p q : Nat} {u : Mat K → K} (hp : p < r) (hq : q < c)
    (hu : ∀ M : Mat K, M.r = r → M.c = c → u M = g (p, q) (M.m p q)) :
    Maps (MatGood r c) (matV (K := K)) (fun M => M.set p q (u M)) (fun x => x = (p, q)) g := by
  intro M hd
  refine ⟨_, Mat.set_ok (by rw [hd.1]; exact hp) (by rw [hd.2]; exact hq), hd, fun x => ⟨?_, ?_⟩⟩
  · rintro rfl; exact (if_pos ⟨rfl, rfl⟩).trans (hu M hd.1 hd.2)
  · intro h; exact if_neg (fun h' => h (Prod.ext h'.1 h'.2))

end mat

section pair

variable {D : ι → Prop} {S0 : Bool × ι → Prop} {val : Bool × ι → K}

/-- shape of a pair of arrays -/
abbrev PairGood (D : ι → Prop) (A : Arr ι K × Arr ι K) : Prop := A.1.dom = D ∧ A.2.dom = D

/-- entries of a pair of arrays -/
abbrev pairV (A : Arr ι K × Arr ι K) (x : Bool × ι) : K := if x.1 = true then A.1.v x.2 else A.2.v x.2

theorem Fills.pairSet {p : ι} {a b : K} (hp : D p) (ha : a = val (true, p)) (hb : b = val (false, p)) :
    Fills (PairGood D) (pairV (K := K)) S0
      (fun A : Arr ι K × Arr ι K => A.1.set p a >>= fun X => A.2.set p b >>= fun Y => ok (X, Y)) (fun x => x.2 = p) val := by
  classical
  rintro ⟨A, B⟩ ⟨h1, h2⟩ _
  dsimp only at h1 h2 ⊢
  rw [Arr.set_ok (by rw [h1]; exact hp), ok_bind, Arr.set_ok (by rw [h2]; exact hp), ok_bind]
  refine ⟨_, rfl, ⟨h1, h2⟩, ?_⟩
  rintro ⟨c, x⟩
  cases c
  · constructor
    · rintro rfl; simp [pairV, hb]
    · intro h
      have h' : x ≠ p := h
      simp [pairV, h']
  · constructor
    · rintro rfl; simp [pairV, ha]
    · intro h
      have h' : x ≠ p := h
      simp [pairV, h']

end pair

end Verif
