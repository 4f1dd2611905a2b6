import Verif.Mesh.Model
import Verif.Mesh.Spec
import Verif.Core.Fills
import Verif.Numeric.Props

/-! Helper lemmas about the mesh. -/

namespace Verif.Mesh

open Verif Outcome Finset

variable {K : Type}

theorem Fills.weaken {σ ι : Type} {good : σ → Prop} {v : σ → ι → K} {S0 S0' : ι → Prop} {f : σ → Outcome σ} {S : ι → Prop}
    {val : ι → K} (hf : Fills good v S0 f S val) (h : ∀ x, S0 x → S0' x) : Fills good v S0' f S val :=
  fun s hs h0 => hf s hs (fun x hx => h0 x (h x hx))

/-! ### filling loops -/

/-- a loop over the columns `m` that fills each of them -/
theorem columns (E C : Nat) (body : Nat → Mat K → Outcome (Mat K)) (val : Nat → Nat → K) (x0 : Mat K) (hr : x0.r = E)
    (hc : x0.c = C)
    (h : ∀ m, m < C → ∃ g : Nat → Mat K → Outcome (Mat K), (∀ x, body m x = loop g E x) ∧
      ∀ i, i < E → ∀ x, g i x = x.set i m (val i m)) :
    Gives (loop body C x0) E C val := by
  have key : Fills (MatGood E C) (matV (K := K)) (fun _ => False) (fun s => loop body C s)
      (fun x => ∃ m, m < C ∧ ∃ i, i < E ∧ x = (i, m)) (fun x => val x.1 x.2) := by
    refine Fills.loop (fun m hm => ?_)
    obtain ⟨g, hg, hs⟩ := h m hm
    refine (Fills.loop (S := fun i x => x = (i, m)) (body := g) (n := E) (fun i hi => ?_)).congr (fun s _ _ => hg s)
      (fun x => Iff.rfl)
    exact (Fills.matSet (val := fun x => val x.1 x.2) hi hm rfl).congr (fun s _ _ => hs i hi s) (fun x => Iff.rfl)
  obtain ⟨X, e, ⟨h1, h2⟩, h3⟩ := key x0 ⟨hr, hc⟩ (fun x hx => hx.elim)
  exact ⟨X, e, h1, h2, fun i hi j hj => (h3 (i, j)).1 ⟨j, hj, i, hi, rfl⟩⟩

/-- a loop over the rows that fills each of them -/
theorem rows (E C : Nat) (body : Nat → Nat → Mat K → Outcome (Mat K)) (val : Nat → Nat → K) (x0 : Mat K) (hr : x0.r = E)
    (hc : x0.c = C) (h : ∀ i, i < E → ∀ j, j < C → ∀ x, body i j x = x.set i j (val i j)) :
    Gives (loop (fun i => loop (body i) C) E x0) E C val := by
  have key : Fills (MatGood E C) (matV (K := K)) (fun _ => False) (fun s => loop (fun i => loop (body i) C) E s)
      (fun x => ∃ i, i < E ∧ ∃ j, j < C ∧ x = (i, j)) (fun x => val x.1 x.2) := by
    refine Fills.loop (fun i hi => Fills.loop (fun j hj => ?_))
    exact (Fills.matSet (val := fun x => val x.1 x.2) hi hj rfl).congr (fun s _ _ => h i hi j hj s) (fun x => Iff.rfl)
  obtain ⟨X, e, ⟨h1, h2⟩, h3⟩ := key x0 ⟨hr, hc⟩ (fun x hx => hx.elim)
  exact ⟨X, e, h1, h2, fun i hi j hj => (h3 (i, j)).1 ⟨i, hi, j, hj, rfl⟩⟩

/-- shape of a box -/
abbrev BoxGood (a b c : Nat) (x : Box K) : Prop := x.a = a ∧ x.b = b ∧ x.c = c

/-- entries of a box -/
abbrev boxV (x : Box K) (p : ℕ × ℕ × ℕ) : K := x.v p.1 p.2.1 p.2.2

theorem boxSet {a b c : Nat} {S0 : ℕ × ℕ × ℕ → Prop} {val : ℕ × ℕ × ℕ → K} {i j k : Nat} {y : K} (hi : i < a) (hj : j < b)
    (hk : k < c) (hy : y = val (i, j, k)) :
    Fills (BoxGood a b c) (boxV (K := K)) S0 (fun x => x.set i j k y) (fun x => x = (i, j, k)) val := by
  rintro x ⟨h1, h2, h3⟩ _
  refine ⟨⟨x.a, x.b, x.c, fun p q r => if p = i ∧ q = j ∧ r = k then y else x.v p q r⟩, ?_, ⟨h1, h2, h3⟩, fun p => ⟨?_, ?_⟩⟩
  · simp [Box.set, h1, h2, h3, hi, hj, hk]
  · rintro rfl; exact (if_pos ⟨rfl, rfl, rfl⟩).trans hy
  · intro h; exact if_neg (fun h' => h (Prod.ext h'.1 (Prod.ext h'.2.1 h'.2.2)))

theorem Box.get_ok {x : Box K} {i j k : Nat} (hi : i < x.a) (hj : j < x.b) (hk : k < x.c) : x.get i j k = ok (x.v i j k) := by
  simp [Box.get, hi, hj, hk]

/-- outer loop over `m`, two inner loops; entry `(p, q, r) = at m s t` -/
theorem boxes (a b c n1 n2 n3 : Nat) (loc : Nat → Nat → Nat → ℕ × ℕ × ℕ) (body : Nat → Box K → Outcome (Box K))
    (val : Nat → Nat → Nat → K) (x0 : Box K) (ha : x0.a = a) (hb : x0.b = b) (hc : x0.c = c)
    (hloc : ∀ i, i < a → ∀ j, j < b → ∀ k, k < c → ∃ m s t, m < n1 ∧ s < n2 ∧ t < n3 ∧ (i, j, k) = loc m s t)
    (h : ∀ m, m < n1 → ∃ g : Nat → Nat → Box K → Outcome (Box K),
      (∀ x, body m x = loop (fun s => loop (g s) n3) n2 x) ∧
      ∀ s, s < n2 → ∀ t, t < n3 → ((loc m s t).1 < a ∧ (loc m s t).2.1 < b ∧ (loc m s t).2.2 < c) ∧
        ∀ x, g s t x = x.set (loc m s t).1 (loc m s t).2.1 (loc m s t).2.2
          (val (loc m s t).1 (loc m s t).2.1 (loc m s t).2.2)) :
    GivesBox (loop body n1 x0) a b c val := by
  have key : Fills (BoxGood a b c) (boxV (K := K)) (fun _ => False) (fun s => loop body n1 s)
      (fun x => ∃ m, m < n1 ∧ ∃ s, s < n2 ∧ ∃ t, t < n3 ∧ x = loc m s t) (fun x => val x.1 x.2.1 x.2.2) := by
    refine Fills.loop (fun m hm => ?_)
    obtain ⟨g, hg, hs⟩ := h m hm
    refine (Fills.loop (S := fun s x => ∃ t, t < n3 ∧ x = loc m s t) (body := fun s => loop (g s) n3) (n := n2)
      (fun s hs' => Fills.loop (S := fun t x => x = loc m s t) (fun t ht => ?_))).congr (fun s _ _ => hg s) (fun x => Iff.rfl)
    obtain ⟨⟨h1, h2, h3⟩, h4⟩ := hs s hs' t ht
    exact (boxSet (val := fun x => val x.1 x.2.1 x.2.2) h1 h2 h3 rfl).congr (fun s _ _ => h4 s) (fun x => Iff.rfl)
  obtain ⟨X, e, ⟨h1, h2, h3⟩, h4⟩ := key x0 ⟨ha, hb, hc⟩ (fun x hx => hx.elim)
  refine ⟨X, e, h1, h2, h3, fun i hi j hj k hk => ?_⟩
  obtain ⟨m, s, t, hm, hs, ht, he⟩ := hloc i hi j hj k hk
  exact (h4 (i, j, k)).1 ⟨m, hm, s, hs, t, ht, he⟩

/-! ### outcomes of code whose only failure is undefined behaviour -/

/-- normal end or undefined behaviour -/
def OkUb {α : Type} (x : Outcome α) : Prop := (∃ a, x = ok a) ∨ x = ub

theorem OkUb.bind {α β : Type} {x : Outcome α} {f : α → Outcome β} (hx : OkUb x) (hf : ∀ a, OkUb (f a)) : OkUb (x >>= f) := by
  rcases hx with ⟨a, rfl⟩ | rfl
  · rw [ok_bind]; exact hf a
  · exact Or.inr rfl

theorem OkUb.ok {α : Type} (a : α) : OkUb (Outcome.ok a) := Or.inl ⟨a, rfl⟩

theorem OkUb.loop {σ : Type} {body : Nat → σ → Outcome σ} (h : ∀ i s, OkUb (body i s)) (n : Nat) (s : σ) :
    OkUb (Verif.loop body n s) := by
  induction n with
  | zero => exact OkUb.ok s
  | succ n ih => exact OkUb.bind ih (h n)

theorem OkUb.get (x : Vec K) (i : Nat) : OkUb (x.get i) := by
  unfold Vec.get; split_ifs <;> [exact OkUb.ok _; exact Or.inr rfl]

theorem OkUb.set (x : Vec K) (i : Nat) (a : K) : OkUb (x.set i a) := by
  unfold Vec.set; split_ifs <;> [exact OkUb.ok _; exact Or.inr rfl]

theorem OkUb.mget (x : Mat K) (i j : Nat) : OkUb (x.get i j) := by
  unfold Mat.get; split_ifs <;> [exact OkUb.ok _; exact Or.inr rfl]

theorem OkUb.mset (x : Mat K) (i j : Nat) (a : K) : OkUb (x.set i j a) := by
  unfold Mat.set; split_ifs <;> [exact OkUb.ok _; exact Or.inr rfl]

theorem OkUb.bget (x : Box K) (i j k : Nat) : OkUb (x.get i j k) := by
  unfold Box.get; split_ifs <;> [exact OkUb.ok _; exact Or.inr rfl]

theorem OkUb.bset (x : Box K) (i j k : Nat) (a : K) : OkUb (x.set i j k a) := by
  unfold Box.set; split_ifs <;> [exact OkUb.ok _; exact Or.inr rfl]

/-- if some pass cannot end normally, the loop is undefined -/
theorem OkUb.loop_ub {σ : Type} {body : Nat → σ → Outcome σ} (h : ∀ i s, OkUb (body i s)) {n k : Nat} (hk : k < n)
    (hb : ∀ s, body k s = Outcome.ub) (s : σ) : Verif.loop body n s = Outcome.ub := by
  induction n with
  | zero => omega
  | succ n ih =>
    rw [loop_succ]
    by_cases h' : k = n
    · subst h'
      rcases OkUb.loop h k s with ⟨a, e⟩ | e
      · rw [e, ok_bind, hb]
      · rw [e, ub_bind]
    · rw [ih (by omega), ub_bind]

/-! ### laws -/

theorem lawAt_ok {L : List (Vec ℝ)} {g : Nat} (h : g < L.length) (T : ℝ) : lawAt L g T = ok (law L T g) := by
  unfold lawAt law
  rw [List.getElem?_eq_getElem h]
  exact Numeric.C09_calc _ _

theorem lawAt_ub {L : List (Vec ℝ)} {g : Nat} (h : L.length ≤ g) (T : ℝ) : lawAt L g T = ub := by
  unfold lawAt
  rw [List.getElem?_eq_none h]

theorem lawAt_okub (L : List (Vec ℝ)) (g : Nat) (T : ℝ) : OkUb (lawAt L g T) := by
  by_cases h : g < L.length
  · rw [lawAt_ok h]; exact OkUb.ok _
  · rw [lawAt_ub (by omega)]; exact Or.inr rfl

theorem evalLaws_ok {L : List (Vec ℝ)} {m : Material} (h : m.energies ≤ L.length) :
    GivesVec (evalLaws L m) m.energies (law L m.T) :=
  loop_fill _ _ _ _ (fun i t hi _ => by rw [lawAt_ok (by omega), ok_bind])

theorem evalLaws_okub (L : List (Vec ℝ)) (m : Material) : OkUb (evalLaws L m) :=
  OkUb.loop (fun i s => (lawAt_okub L i m.T).bind (fun a => OkUb.set s i a)) _ _

theorem evalLaws_ub {L : List (Vec ℝ)} {m : Material} (h : L.length < m.energies) : evalLaws L m = ub :=
  OkUb.loop_ub (fun i s => (lawAt_okub L i m.T).bind (fun a => OkUb.set s i a)) h
    (fun s => by rw [lawAt_ub le_rfl, ub_bind]) _

theorem evalLaws0_ok {L : List (Vec ℝ)} {m : Material} (h : L = [] ∨ m.energies ≤ L.length) :
    GivesVec (evalLaws0 L m) m.energies (law L m.T) := by
  unfold evalLaws0
  split_ifs with hl
  · exact evalLaws_ok (by
      rcases h with h | h
      · subst h; simp at hl
      · exact h)
  · have : L = [] := by
      cases L with
      | nil => rfl
      | cons a l => simp at hl
    subst this
    exact ⟨_, rfl, rfl, fun i _ => by simp [Vec.const, law]⟩

theorem evalLaws0_okub (L : List (Vec ℝ)) (m : Material) : OkUb (evalLaws0 L m) := by
  unfold evalLaws0
  split_ifs
  · exact evalLaws_okub L m
  · exact OkUb.ok _

theorem evalLaws0_ub {L : List (Vec ℝ)} {m : Material} (hL : L ≠ []) (h : L.length < m.energies) : evalLaws0 L m = ub := by
  unfold evalLaws0
  rw [if_pos (List.length_pos_iff.2 hL), evalLaws_ub h]

theorem table_ok {M : Grid} {read : Material → Outcome (Vec ℝ)} {f : Nat → Nat → ℝ} (hn : M.cells ≤ M.mats.n)
    (h : ∀ i, i < M.cells → GivesVec (read (M.mats.v i)) M.energies (fun g => f g i)) :
    Gives (table read M) M.energies M.cells f := by
  refine columns M.energies M.cells _ f _ rfl rfl (fun m hm => ?_)
  obtain ⟨y, hy, hyn, hyv⟩ := h m hm
  refine ⟨fun i x => do
      let z ← y.get i
      x.set i m z, fun x => ?_, fun i hi x => ?_⟩
  · rw [Vec.get_ok (by omega), ok_bind, hy, ok_bind]
  · dsimp only
    rw [Vec.get_ok (by omega), ok_bind, hyv i hi]

theorem table_okub {M : Grid} {read : Material → Outcome (Vec ℝ)} (h : ∀ m, OkUb (read m)) (m : Nat) (x : Mat ℝ) :
    OkUb (do
      let mat ← M.mats.get m
      let y ← read mat
      loop (fun i x => do
        let z ← y.get i
        x.set i m z) M.energies x) :=
  (OkUb.get _ _).bind (fun mat => (h mat).bind (fun y => OkUb.loop (fun i s => (OkUb.get _ _).bind (fun z => OkUb.mset _ _ _ _)) _ _))

theorem table_ub {M : Grid} {read : Material → Outcome (Vec ℝ)} (h : ∀ m, OkUb (read m)) {i : Nat} (hi : i < M.cells)
    (hu : read (M.mats.v i) = ub) : table read M = ub := by
  refine OkUb.loop_ub (table_okub h) hi (fun s => ?_) _
  by_cases hn : i < M.mats.n
  · rw [Vec.get_ok hn, ok_bind, hu, ub_bind]
  · rw [Vec.get_ub hn, ub_bind]

theorem scattMatrix_ok {m : Material} (h : m.energies * m.energies ≤ m.scatt.length) :
    Gives (scattMatrix m) m.energies m.energies (fun i j => law m.scatt m.T (j + i * m.energies)) := by
  refine rows m.energies m.energies _ _ _ rfl rfl (fun i hi j hj x => ?_)
  have : j + i * m.energies < m.energies * m.energies := by
    have : (i + 1) * m.energies ≤ m.energies * m.energies := Nat.mul_le_mul_right _ hi
    rw [Nat.add_mul, Nat.one_mul] at this
    omega
  rw [lawAt_ok (by omega), ok_bind]

theorem scattMatrix_okub (m : Material) : OkUb (scattMatrix m) :=
  OkUb.loop (fun i s => OkUb.loop (fun j s => (lawAt_okub _ _ _).bind (fun a => OkUb.mset _ _ _ _)) _ _) _ _

theorem scattMatrix_ub {m : Material} (h : m.scatt.length < m.energies * m.energies) : scattMatrix m = ub := by
  have hE : 0 < m.energies := by
    rcases Nat.eq_zero_or_pos m.energies with h0 | h0
    · rw [h0] at h; simp at h
    · exact h0
  have h1 : m.scatt.length / m.energies < m.energies := by rw [Nat.div_lt_iff_lt_mul hE]; exact h
  refine OkUb.loop_ub (fun i s => OkUb.loop (fun j s => (lawAt_okub _ _ _).bind (fun a => OkUb.mset _ _ _ _)) _ _) h1 (fun s => ?_) _
  refine OkUb.loop_ub (fun j s => (lawAt_okub _ _ _).bind (fun a => OkUb.mset _ _ _ _)) (Nat.mod_lt m.scatt.length hE) (fun s => ?_) _
  rw [lawAt_ub (by rw [Nat.add_comm, Nat.mul_comm, Nat.div_add_mod]), ub_bind]

theorem scatts_ok {M : Grid} (hM : Furnished M) (h : ∀ i, i < M.cells → M.energies * M.energies ≤ (M.mats.v i).scatt.length) :
    GivesBox (scatts M) M.energies M.energies M.cells
      (fun g h i => law (M.mats.v i).scatt (M.mats.v i).T (h + g * M.energies)) := by
  refine boxes M.energies M.energies M.cells M.cells M.energies M.energies (fun m s t => (s, t, m)) _ _ _ rfl rfl rfl
    (fun i hi j hj k hk => ⟨k, i, j, hk, hi, hj, rfl⟩) (fun m hm => ?_)
  have hE := hM.energies m hm
  obtain ⟨y, hy, hr, hc, hv⟩ := scattMatrix_ok (m := M.mats.v m) (by rw [hE]; exact h m hm)
  rw [hE] at hr hc hv
  refine ⟨fun i j x => do
      let z ← y.get i j
      x.set i j m z, fun x => ?_, fun s hs t ht => ⟨⟨hs, ht, hm⟩, fun x => ?_⟩⟩
  · dsimp only
    rw [Vec.get_ok (by rw [hM.mats_n]; exact hm), ok_bind, hy, ok_bind]
  · dsimp only
    rw [Mat.get_ok (by omega) (by omega), ok_bind, hv s hs t ht]

theorem scatts_ub {M : Grid} {i : Nat} (hi : i < M.cells)
    (h : (M.mats.v i).scatt.length < (M.mats.v i).energies * (M.mats.v i).energies) : scatts M = ub := by
  refine OkUb.loop_ub (fun m x => (OkUb.get _ _).bind (fun mat => (scattMatrix_okub mat).bind (fun y =>
    OkUb.loop (fun i s => OkUb.loop (fun j s => (OkUb.mget _ _ _).bind (fun z => OkUb.bset _ _ _ _ _)) _ _) _ _))) hi (fun s => ?_) _
  by_cases hn : i < M.mats.n
  · rw [Vec.get_ok hn, ok_bind, scattMatrix_ub h, ub_bind]
  · rw [Vec.get_ub hn, ub_bind]

/-! ### changes of the materials -/

theorem change_ok {f : Material → Material} {i : Nat} {M : Grid} (h : i < M.mats.n) :
    change f i M = ok { M with mats := ⟨M.mats.n, Function.update M.mats.v i (f (M.mats.v i))⟩ } := by
  unfold change
  rw [Vec.get_ok h, ok_bind, Vec.set_ok h, ok_bind]

theorem change_okub (f : Material → Material) (i : Nat) (M : Grid) : OkUb (change f i M) := by
  by_cases h : i < M.mats.n
  · rw [change_ok h]; exact OkUb.ok _
  · unfold change; rw [Vec.get_ub h]; exact Or.inr rfl

theorem change_ub (f : Material → Material) {i : Nat} {M : Grid} (h : M.mats.n ≤ i) : change f i M = ub := by
  unfold change; rw [Vec.get_ub (by omega)]; rfl

/-- `M'` is `M` with the materials of the first `n` cells changed by `f`. -/
def Changed (f : Nat → Material → Material) (n : Nat) (M M' : Grid) : Prop :=
  M'.geom = M.geom ∧ M'.bounds = M.bounds ∧ M'.cells = M.cells ∧ M'.energies = M.energies ∧ M'.nForward = M.nForward ∧
    M'.nAdjoint = M.nAdjoint ∧ M'.mats.n = M.mats.n ∧
    ∀ i, M'.mats.v i = if i < n then f i (M.mats.v i) else M.mats.v i

theorem changes_ok {body : Nat → Grid → Outcome Grid} (f : Nat → Material → Material) (n : Nat) (M : Grid) (hn : n ≤ M.mats.n)
    (hb : ∀ i, i < n → ∀ M', body i M' = change (f i) i M') : ∃ M', loop body n M = ok M' ∧ Changed f n M M' := by
  refine loop_inv (fun k M' => Changed f k M M') ⟨rfl, rfl, rfl, rfl, rfl, rfl, rfl, fun i => by simp⟩ ?_
  rintro i t hi ⟨h1, h2, h3, h4, h5, h6, h7, h8⟩
  refine ⟨_, (hb i hi t).trans (change_ok (by omega)), h1, h2, h3, h4, h5, h6, h7, fun j => ?_⟩
  dsimp only
  by_cases hj : j = i
  · subst hj
    rw [Function.update_self, if_pos (by omega), h8 j, if_neg (by omega)]
  · rw [Function.update_of_ne hj, h8 j]
    by_cases hj' : j < i
    · rw [if_pos hj', if_pos (by omega)]
    · rw [if_neg hj', if_neg (by omega)]

theorem changes_ub {body : Nat → Grid → Outcome Grid} (f : Nat → Material → Material) (n : Nat) (M : Grid) (hn : M.mats.n < n)
    (hb : ∀ i, i < n → ∀ M', body i M' = change (f i) i M') : loop body n M = ub := by
  obtain ⟨M', e, -, -, -, -, -, -, h7, -⟩ := changes_ok (body := body) f M.mats.n M le_rfl (fun i hi => hb i (by omega))
  exact loop_fail_at (fun _ => rfl) hn e (by rw [hb _ hn, change_ub _ (by omega)])

/-- reading one number per cell -/
theorem perCell {M : Grid} (f : Material → K) (z : K) (hn : M.cells ≤ M.mats.n) :
    GivesVec (loop (fun i x => do
      let m ← M.mats.get i
      x.set i (f m)) M.cells (Vec.const M.cells z)) M.cells (fun i => f (M.mats.v i)) :=
  loop_fill _ _ _ _ (fun i t hi _ => by rw [Vec.get_ok (by omega), ok_bind])

theorem chip_ok {t : Box Fl} {m : Nat} (hm : m < t.b) : Gives (chip t m) t.a t.c (fun i k => t.v i m k) :=
  rows t.a t.c _ _ _ rfl rfl (fun i hi j hj x => by rw [Box.get_ok hi hm hj, ok_bind])

theorem modeBox_ok {M : Grid} {read : Material → Mat Fl} {n : Nat} {f : Nat → Nat → Nat → Fl} (hn : M.cells ≤ M.mats.n)
    (h : ∀ m, m < M.cells → M.energies ≤ (read (M.mats.v m)).r ∧ n ≤ (read (M.mats.v m)).c ∧
      ∀ i, i < M.energies → ∀ k, k < n → (read (M.mats.v m)).m i k = f i m k) :
    GivesBox (modeBox read n M) M.energies M.cells n f := by
  refine boxes M.energies M.cells n M.cells n M.energies (fun m s t => (t, m, s)) _ _ _ rfl rfl rfl
    (fun i hi j hj k hk => ⟨j, k, i, hj, hk, hi, rfl⟩) (fun m hm => ?_)
  obtain ⟨h1, h2, h3⟩ := h m hm
  refine ⟨fun k i x => do
      let y ← (read (M.mats.v m)).get i k
      x.set i m k y, fun x => ?_, fun s hs t ht => ⟨⟨ht, hm, hs⟩, fun x => ?_⟩⟩
  · dsimp only
    rw [Vec.get_ok (by omega), ok_bind]
  · dsimp only
    rw [Mat.get_ok (by omega) (by omega), ok_bind, h3 t ht s hs]

theorem firstModes_ok {M : Grid} {read : Material → Mat Fl} {f : Nat → Nat → Fl} (hn : M.cells ≤ M.mats.n)
    (h : ∀ m, m < M.cells → M.energies ≤ (read (M.mats.v m)).r ∧ 0 < (read (M.mats.v m)).c ∧
      ∀ i, i < M.energies → (read (M.mats.v m)).m i 0 = f i m) :
    Gives (firstModes read M) M.energies M.cells f := by
  refine columns M.energies M.cells _ f _ rfl rfl (fun m hm => ?_)
  obtain ⟨h1, h2, h3⟩ := h m hm
  refine ⟨fun i x => do
      let y ← (read (M.mats.v m)).get i 0
      x.set i m y, fun x => ?_, fun i hi x => ?_⟩
  · rw [Vec.get_ok (by omega), ok_bind]
  · dsimp only
    rw [Mat.get_ok (by omega) h2, ok_bind, h3 i hi]

/-! ### geometry -/

theorem volumeLoop_ok (f : ℝ → ℝ → ℝ) {b : Vec ℝ} {n : Nat} (h : b.n = n + 1) :
    GivesVec (volumeLoop f b) n (fun i => f (b.v (i + 1)) (b.v i)) := by
  unfold volumeLoop
  rw [h, predIdx_ok (by omega), ok_bind, Nat.add_sub_cancel]
  unfold loopFrom
  refine loop_fill _ _ _ _ (fun i t hi ht => ?_)
  have e : 1 + i - 1 = i := by omega
  dsimp only
  rw [Vec.get_ok (by omega), ok_bind, e, Vec.get_ok (by omega), ok_bind, Nat.add_comm 1 i]

theorem volumeLoop_ub (f : ℝ → ℝ → ℝ) {b : Vec ℝ} (h : b.n = 0) : volumeLoop f b = ub := by
  unfold volumeLoop
  rw [h]
  rfl

theorem sphereSurfaces_ok (b : Vec ℝ) : GivesVec (sphereSurfaces b) b.n (fun i => 4 * Real.pi * b.v i ^ 2) :=
  loop_fill _ _ _ _ (fun i t hi _ => by rw [Vec.get_ok hi, ok_bind])

/-- volume between the boundaries at `y` and `z` -/
noncomputable def shell : Diffusion.Geom → ℝ → ℝ → ℝ
  | .undefined, _, _ => 0
  | .slab, y, z => y - z
  | .cylinder, y, z => Real.pi * (y ^ 2 - z ^ 2)
  | .sphere, y, z => 4 / 3 * Real.pi * (y ^ 3 - z ^ 3)

theorem unit_m (f : ℝ) (x : Vec ℝ) : unit "m" f x = x := rfl

theorem unit_cm (f : ℝ) (x : Vec ℝ) : unit "cm" f x = ⟨x.n, fun i => x.v i * f⟩ := rfl

theorem unit_other {dim : String} (h1 : dim ≠ "m") (h2 : dim ≠ "cm") (f : ℝ) (x : Vec ℝ) :
    unit dim f x = ⟨x.n, fun i => x.v i * -1⟩ := by
  unfold unit
  rw [if_neg h1, if_neg h2]

theorem volumes_ok {M : Grid} (h : M.bounds.n = M.cells + 1) (hg : M.geom ≠ .undefined) :
    GivesVec (volumes M "m") M.cells (fun i => shell M.geom (M.bounds.v (i + 1)) (M.bounds.v i)) ∧
    GivesVec (volumes M "cm") M.cells
      (fun i => 100 ^ dimension M.geom * shell M.geom (M.bounds.v (i + 1)) (M.bounds.v i)) := by
  unfold volumes
  cases hG : M.geom with
  | undefined => exact absurd hG hg
  | slab =>
    obtain ⟨x, e, hn, hv⟩ := volumeLoop_ok (fun y z => y - z) h
    rw [e]
    refine ⟨⟨x, rfl, hn, hv⟩, ⟨_, rfl, hn, fun i hi => ?_⟩⟩
    rw [unit_cm]; dsimp only; rw [hv i hi]; simp only [dimension, shell]; ring
  | cylinder =>
    obtain ⟨x, e, hn, hv⟩ := volumeLoop_ok (fun y z => Real.pi * (y ^ 2 - z ^ 2)) h
    rw [e]
    refine ⟨⟨x, rfl, hn, hv⟩, ⟨_, rfl, hn, fun i hi => ?_⟩⟩
    rw [unit_cm]; dsimp only; rw [hv i hi]; simp only [dimension, shell]; ring
  | sphere =>
    obtain ⟨x, e, hn, hv⟩ := volumeLoop_ok (fun y z => 4 / 3 * Real.pi * (y ^ 3 - z ^ 3)) h
    rw [e]
    refine ⟨⟨x, rfl, hn, hv⟩, ⟨_, rfl, hn, fun i hi => ?_⟩⟩
    rw [unit_cm]; dsimp only; rw [hv i hi]; simp only [dimension, shell]; ring

theorem surfaces_ok {M : Grid} (hg : M.geom ≠ .undefined) :
    GivesVec (surfaces M "m") M.bounds.n (fun i => area M.geom (M.bounds.v i)) ∧
    GivesVec (surfaces M "cm") M.bounds.n (fun i => 100 ^ (dimension M.geom - 1) * area M.geom (M.bounds.v i)) := by
  unfold surfaces
  cases hG : M.geom with
  | undefined => exact absurd hG hg
  | slab => exact ⟨⟨_, rfl, rfl, fun i _ => rfl⟩, ⟨_, rfl, rfl, fun i _ => by simp [Vec.const, dimension, area]⟩⟩
  | cylinder =>
    refine ⟨⟨_, rfl, rfl, fun i _ => rfl⟩, ⟨_, rfl, rfl, fun i _ => ?_⟩⟩
    rw [unit_cm]; simp only [dimension, area]; ring
  | sphere =>
    obtain ⟨x, e, hn, hv⟩ := sphereSurfaces_ok M.bounds
    rw [e]
    refine ⟨⟨x, rfl, hn, hv⟩, ⟨_, rfl, hn, fun i hi => ?_⟩⟩
    rw [unit_cm]; dsimp only; rw [hv i hi]; simp only [dimension, area]; ring

theorem last_ok {x : Vec ℝ} {n : Nat} (h : x.n = n + 1) : last x = ok (x.v n) := by
  unfold last
  rw [h, predIdx_ok (by omega), ok_bind, Nat.add_sub_cancel, Vec.get_ok (by omega)]

theorem sizes_ok {M : Grid} (h : M.bounds.n = M.cells + 1) :
    GivesVec (cellSizes M "m") M.cells (fun i => M.bounds.v (i + 1) - M.bounds.v i) ∧
    GivesVec (cellSizes M "cm") M.cells (fun i => 100 * (M.bounds.v (i + 1) - M.bounds.v i)) := by
  obtain ⟨x, e, hn, hv⟩ := loop_fill (fun i => M.bounds.v (i + 1) - M.bounds.v i) M.cells 0 (fun i x => do
    let y ← M.bounds.get (i + 1)
    let z ← M.bounds.get i
    x.set i (y - z)) (fun i t hi _ => by rw [Vec.get_ok (by omega), ok_bind, Vec.get_ok (by omega), ok_bind])
  unfold cellSizes
  rw [e]
  refine ⟨⟨x, rfl, hn, hv⟩, ⟨_, rfl, hn, fun i hi => ?_⟩⟩
  rw [unit_cm]; dsimp only; rw [hv i hi]; ring

theorem bounds_nonneg {M : Grid} (h : Shaped M) (hg : M.geom ≠ .slab) : ∀ i, i ≤ M.cells → 0 ≤ M.bounds.v i := by
  intro i
  induction i with
  | zero => exact fun _ => h.first hg
  | succ i ih => exact fun hi => (ih (by omega)).trans (h.incr i (by omega)).le

theorem shell_pos {M : Grid} (h : Shaped M) {i : Nat} (hi : i < M.cells) :
    0 < shell M.geom (M.bounds.v (i + 1)) (M.bounds.v i) := by
  have h1 := h.incr i hi
  have hpi := Real.pi_pos
  cases hG : M.geom with
  | undefined => exact absurd hG h.geom
  | slab => simp only [shell]; linarith
  | cylinder =>
    have h0 := bounds_nonneg h (by rw [hG]; decide) i hi.le
    have : M.bounds.v i ^ 2 < M.bounds.v (i + 1) ^ 2 := pow_lt_pow_left₀ h1 h0 two_ne_zero
    simp only [shell]
    exact mul_pos hpi (by linarith)
  | sphere =>
    have h0 := bounds_nonneg h (by rw [hG]; decide) i hi.le
    have : M.bounds.v i ^ 3 < M.bounds.v (i + 1) ^ 3 := pow_lt_pow_left₀ h1 h0 three_ne_zero
    simp only [shell]
    exact mul_pos (by positivity) (by linarith)

theorem area_pos {M : Grid} (h : Shaped M) {i : Nat} (hi : i < M.cells) : 0 < area M.geom (M.bounds.v (i + 1)) := by
  have h1 := h.incr i hi
  have hpi := Real.pi_pos
  cases hG : M.geom with
  | undefined => exact absurd hG h.geom
  | slab => simp [area]
  | cylinder =>
    have h0 := bounds_nonneg h (by rw [hG]; decide) i hi.le
    simp only [area]
    exact mul_pos (by positivity) (by linarith)
  | sphere =>
    have h0 := bounds_nonneg h (by rw [hG]; decide) i hi.le
    simp only [area]
    have : 0 < M.bounds.v (i + 1) := by linarith
    positivity

theorem area_nonneg {M : Grid} (h : Shaped M) {i : Nat} (hi : i ≤ M.cells) : 0 ≤ area M.geom (M.bounds.v i) := by
  have hpi := Real.pi_pos
  cases hG : M.geom with
  | undefined => exact absurd hG h.geom
  | slab => simp [area]
  | cylinder =>
    have h0 := bounds_nonneg h (by rw [hG]; decide) i hi
    simp only [area]; positivity
  | sphere => simp only [area]; positivity

end Verif.Mesh
