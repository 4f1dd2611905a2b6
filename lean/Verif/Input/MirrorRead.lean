import Verif.Input.MediumRead

/-! # A slab and its mirror image: lemmas -/

namespace Verif.Solve

open Verif Outcome Finset

/-- the data of `d'` are those of `d` in the opposite order -/
structure Mirrored (d d' : Diffusion.Data) : Prop where
  cells : d'.cells = d.cells
  energies : d'.energies = d.energies
  size : ∀ i, i < d.cells → d'.size.v i = d.size.v (d.cells - 1 - i)
  vol : ∀ i, i < d.cells → d'.vol.v i = d.vol.v (d.cells - 1 - i)
  surf : ∀ i, i ≤ d.cells → d'.surf.v i = d.surf.v (d.cells - i)
  D : ∀ g i, g < d.energies → i < d.cells → d'.D.m g i = d.D.m g (d.cells - 1 - i)
  tot : ∀ g i, g < d.energies → i < d.cells → d'.tot.m g i = d.tot.m g (d.cells - 1 - i)
  fiss : ∀ g i, g < d.energies → i < d.cells → d'.fiss.m g i = d.fiss.m g (d.cells - 1 - i)
  nu : ∀ g i, g < d.energies → i < d.cells → d'.nu.m g i = d.nu.m g (d.cells - 1 - i)
  chi : ∀ g i, g < d.energies → i < d.cells → d'.chi.m g i = d.chi.m g (d.cells - 1 - i)
  scatt : ∀ g h i, g < d.energies → h < d.energies → i < d.cells → d'.scatt g h i = d.scatt g h (d.cells - 1 - i)

/-- the flux seen from the other side -/
def mirror (N : Nat) (φ : Nat → ℝ) (p : Nat) : ℝ := φ (N - 1 - p % N + p / N * N)

theorem mirror_flat {N : Nat} {φ : Nat → ℝ} {i e : Nat} (hi : i < N) : mirror N φ (i + e * N) = φ (N - 1 - i + e * N) := by
  unfold mirror
  rw [flat_div hi, Nat.add_mul_mod_self_right, Nat.mod_eq_of_lt hi]

theorem mirror_physical {N E : Nat} {φ : Nat → ℝ} (h : Physical N E φ) : Physical N E (mirror N φ) := by
  refine ⟨fun p hp => ?_, ?_⟩
  · obtain ⟨i, e, hi, he, rfl⟩ := flat_surj hp
    rw [mirror_flat hi]
    exact h.1 _ (flat_lt (by omega) he)
  · obtain ⟨p, hp, hne⟩ := h.2
    obtain ⟨i, e, hi, he, rfl⟩ := flat_surj hp
    refine ⟨N - 1 - i + e * N, flat_lt (by omega) he, ?_⟩
    rwa [mirror_flat (by omega), show N - 1 - (N - 1 - i) = i by omega]

theorem mirror_sum {N E : Nat} (φ : Nat → ℝ) : ∑ p ∈ range (N * E), mirror N φ p = ∑ p ∈ range (N * E), φ p := by
  rw [sum_flat, sum_flat]
  refine sum_congr rfl (fun e _ => ?_)
  rw [← sum_range_reflect (fun i => φ (i + e * N)) N]
  exact sum_congr rfl (fun i hi => mirror_flat (mem_range.1 hi))

variable {d d' : Diffusion.Data} {aL aR k : ℝ} {φ : Nat → ℝ}

/-- the currents seen from the other side -/
theorem Mirrored.currents (M : Mirrored d d') (hc : 0 < d.cells) {J : Nat → Nat → ℝ} (hJ : Currents d aL aR φ J) :
    Currents d' aR aL (mirror d.cells φ) (fun g m => -J g (d.cells - m)) := by
  refine ⟨fun g i hg hi => ?_, fun g hg => ?_, fun g hg => ?_⟩
  all_goals rw [M.energies] at hg
  · rw [M.cells] at hi ⊢
    obtain ⟨x, h1, h2⟩ := hJ.inner g (d.cells - 1 - (i + 1)) hg (by omega)
    have e1 : d.cells - 1 - (i + 1) + 1 = d.cells - 1 - i := by omega
    have e2 : d.cells - (i + 1) = d.cells - 1 - i := by omega
    rw [e1] at h1 h2
    rw [M.D g i hg (by omega), M.D g (i + 1) hg hi, M.size i (by omega), M.size (i + 1) hi, M.surf (i + 1) (by omega), mirror_flat (by omega), mirror_flat hi, e2]
    exact ⟨x, by rw [h2]; ring, by rw [h1]; ring⟩
  · rw [M.cells, M.D g 0 hg hc, M.size 0 hc, M.surf 0 (by omega), mirror_flat hc, neg_neg, Nat.sub_zero, Nat.sub_zero]
    exact hJ.right g hg
  · rw [M.cells, M.D g _ hg (by omega), M.size _ (by omega), M.surf _ le_rfl, mirror_flat (by omega), Nat.sub_self, Nat.sub_self]
    exact hJ.left g hg

theorem Mirrored.scatterIn (M : Mirrored d d') {g i : Nat} (hg : g < d.energies) (hi : i < d.cells) :
    scatterIn d' (mirror d.cells φ) g i = Solve.scatterIn d φ g (d.cells - 1 - i) := by
  unfold Solve.scatterIn
  rw [M.energies, M.cells]
  exact sum_congr rfl (fun f hf => by rw [M.scatt f g i (mem_range.1 hf) hg hi, mirror_flat hi])

theorem Mirrored.production (M : Mirrored d d') {i : Nat} (hi : i < d.cells) : production d' (mirror d.cells φ) i = Solve.production d φ (d.cells - 1 - i) := by
  unfold Solve.production
  rw [M.energies, M.cells]
  exact sum_congr rfl (fun f hf => by rw [M.nu f i (mem_range.1 hf) hi, M.fiss f i (mem_range.1 hf) hi, mirror_flat hi])

/-- the mirrored flux answers the mirrored source -/
theorem Mirrored.answers (M : Mirrored d d') (hc : 0 < d.cells) {q q' : Nat → Nat → ℝ} (hq : ∀ g i, g < d.energies → i < d.cells → q' g i = q g (d.cells - 1 - i))
    (h : ∃ J, Currents d aL aR φ J ∧ ∀ g i, g < d.energies → i < d.cells →
      d.tot.m g i * d.vol.v i * φ (i + g * d.cells) + J g (i + 1) - J g i = d.vol.v i * Solve.scatterIn d φ g i + q g i) :
    ∃ J, Currents d' aR aL (mirror d.cells φ) J ∧ ∀ g i, g < d'.energies → i < d'.cells →
      d'.tot.m g i * d'.vol.v i * mirror d.cells φ (i + g * d'.cells) + J g (i + 1) - J g i = d'.vol.v i * Solve.scatterIn d' (mirror d.cells φ) g i + q' g i := by
  obtain ⟨J, hJ, h⟩ := h
  refine ⟨_, M.currents hc hJ, fun g i hg hi => ?_⟩
  rw [M.energies] at hg
  rw [M.cells] at hi
  have e := h g (d.cells - 1 - i) hg (by omega)
  rw [M.scatterIn hg hi, M.cells, M.tot g i hg hi, M.vol i hi, mirror_flat hi, hq g i hg hi, ← e]
  have e1 : d.cells - 1 - i + 1 = d.cells - i := by omega
  have e2 : d.cells - (i + 1) = d.cells - 1 - i := by omega
  rw [e1, e2]
  ring

/-- the mirrored flux solves the mirrored problem -/
theorem Mirrored.equation (M : Mirrored d d') (hc : 0 < d.cells) (h : DiffusionEq d aL aR k φ) : DiffusionEq d' aR aL k (mirror d.cells φ) := by
  obtain ⟨J, hJ, h⟩ := h
  obtain ⟨J', hJ', h'⟩ := M.answers hc (q := fun g i => d.vol.v i * (d.chi.m g i * Solve.production d φ i / k))
    (q' := fun g i => d'.vol.v i * (d'.chi.m g i * Solve.production d' (mirror d.cells φ) i / k))
    (fun g i hg hi => by rw [M.production hi, M.vol i hi, M.chi g i hg hi]) ⟨J, hJ, fun g i hg hi => by rw [h g i hg hi]; ring⟩
  exact ⟨J', hJ', fun g i hg hi => by rw [h' g i hg hi]; ring⟩

/-- the mirrored flux answers the mirrored source of the adjoint problem -/
theorem Mirrored.answers_adjoint (M : Mirrored d d') (hc : 0 < d.cells) {q q' : Nat → Nat → ℝ} (hq : ∀ g i, g < d.energies → i < d.cells → q' g i = q g (d.cells - 1 - i))
    (h : ∃ J, Currents d aL aR φ J ∧ ∀ g i, g < d.energies → i < d.cells →
      d.tot.m g i * d.vol.v i * φ (i + g * d.cells) + J g (i + 1) - J g i = d.vol.v i * (∑ h ∈ range d.energies, d.scatt g h i * φ (i + h * d.cells)) + q g i) :
    ∃ J, Currents d' aR aL (mirror d.cells φ) J ∧ ∀ g i, g < d'.energies → i < d'.cells →
      d'.tot.m g i * d'.vol.v i * mirror d.cells φ (i + g * d'.cells) + J g (i + 1) - J g i =
        d'.vol.v i * (∑ h ∈ range d'.energies, d'.scatt g h i * mirror d.cells φ (i + h * d'.cells)) + q' g i := by
  obtain ⟨J, hJ, h⟩ := h
  refine ⟨_, M.currents hc hJ, fun g i hg hi => ?_⟩
  rw [M.energies] at hg
  rw [M.cells] at hi
  have e := h g (d.cells - 1 - i) hg (by omega)
  have s : ∑ h ∈ range d'.energies, d'.scatt g h i * mirror d.cells φ (i + h * d'.cells) =
      ∑ h ∈ range d.energies, d.scatt g h (d.cells - 1 - i) * φ (d.cells - 1 - i + h * d.cells) := by
    rw [M.energies, M.cells]
    exact sum_congr rfl (fun f hf => by rw [M.scatt g f i hg (mem_range.1 hf) hi, mirror_flat hi])
  rw [s, M.cells, M.tot g i hg hi, M.vol i hi, mirror_flat hi, hq g i hg hi, ← e]
  have e1 : d.cells - 1 - i + 1 = d.cells - i := by omega
  have e2 : d.cells - (i + 1) = d.cells - 1 - i := by omega
  rw [e1, e2]
  ring

/-- the spectrum-weighted flux seen from the other side -/
theorem Mirrored.importance (M : Mirrored d d') {i : Nat} (hi : i < d.cells) : ∑ h ∈ range d'.energies, d'.chi.m h i * mirror d.cells φ (i + h * d'.cells) =
    ∑ h ∈ range d.energies, d.chi.m h (d.cells - 1 - i) * φ (d.cells - 1 - i + h * d.cells) := by
  rw [M.energies, M.cells]
  exact sum_congr rfl (fun f hf => by rw [M.chi f i (mem_range.1 hf) hi, mirror_flat hi])

theorem Mirrored.equation_adjoint (M : Mirrored d d') (hc : 0 < d.cells) (h : AdjointEq d aL aR k φ) : AdjointEq d' aR aL k (mirror d.cells φ) := by
  obtain ⟨J, hJ, h⟩ := h
  obtain ⟨J', hJ', h'⟩ := M.answers_adjoint hc (q := fun g i => d.vol.v i * (d.nu.m g i * d.fiss.m g i * (∑ h ∈ range d.energies, d.chi.m h i * φ (i + h * d.cells)) / k))
    (q' := fun g i => d'.vol.v i * (d'.nu.m g i * d'.fiss.m g i * (∑ h ∈ range d'.energies, d'.chi.m h i * mirror d.cells φ (i + h * d'.cells)) / k))
    (fun g i hg hi => by rw [M.importance hi, M.vol i hi, M.nu g i hg hi, M.fiss g i hg hi]) ⟨J, hJ, fun g i hg hi => by rw [h g i hg hi]; ring⟩
  exact ⟨J', hJ', fun g i hg hi => by rw [h' g i hg hi]; ring⟩

theorem double_mirror {N E : Nat} {f g : Nat → Nat → ℝ} (h : ∀ e i, e < E → i < N → g e i = f e (N - 1 - i)) :
    ∑ e ∈ range E, ∑ i ∈ range N, g e i = ∑ e ∈ range E, ∑ i ∈ range N, f e i := by
  refine sum_congr rfl (fun e he => ?_)
  rw [← sum_range_reflect (f e) N]
  exact sum_congr rfl (fun i hi => h e i (mem_range.1 he) (mem_range.1 hi))

/-- the generations seen from the other side -/
theorem Mirrored.generations (M : Mirrored d d') (hc : 0 < d.cells) {κ : Nat → ℝ} {y : Nat → Nat → ℝ} (h : DiffusionGenerations d aL aR κ y) :
    DiffusionGenerations d' aR aL κ (fun j => mirror d.cells (y j)) := by
  obtain ⟨x, k0, x0, x1, xn, kn, hy⟩ := h
  have src : ∀ (φ : Nat → ℝ) g i, g < d.energies → i < d.cells → d'.vol.v i * (d'.chi.m g i * Solve.production d' (mirror d.cells φ) i) =
      d.vol.v (d.cells - 1 - i) * (d.chi.m g (d.cells - 1 - i) * Solve.production d φ (d.cells - 1 - i)) := fun φ g i hg hi => by
    rw [M.production hi, M.vol i hi, M.chi g i hg hi]
  refine ⟨fun j => mirror d.cells (x j), k0, fun p hp => ?_, M.answers hc (fun _ _ _ _ => rfl) x1, fun j => M.answers hc (fun g i hg hi => ?_) (xn j), fun j => ?_, fun j p hp => ?_⟩
  · rw [M.cells, M.energies] at hp
    obtain ⟨i, e, hi, he, rfl⟩ := flat_surj hp
    dsimp only
    rw [mirror_flat hi]
    exact x0 _ (flat_lt (by omega) he)
  · dsimp only
    rw [src _ g i hg hi]
  · rw [kn j, M.cells, M.energies]
    dsimp only
    congr 2
    · exact (double_mirror (fun g i hg hi => by rw [src _ g i hg hi])).symm
    · exact (double_mirror (fun g i hg hi => by rw [src _ g i hg hi, src _ g i hg hi])).symm
  · rw [M.cells, M.energies] at hp ⊢
    have := mirror_sum (N := d.cells) (E := d.energies) (fun p => |x j p|)
    obtain ⟨i, e, hi, he, rfl⟩ := flat_surj hp
    dsimp only
    rw [mirror_flat hi, mirror_flat hi, hy j _ (flat_lt (by omega) he), ← this]
    rfl

/-- the same for the adjoint problem -/
theorem Mirrored.generations_adjoint (M : Mirrored d d') (hc : 0 < d.cells) {κ : Nat → ℝ} {y : Nat → Nat → ℝ} (h : AdjointGenerations d aL aR κ y) :
    AdjointGenerations d' aR aL κ (fun j => mirror d.cells (y j)) := by
  obtain ⟨x, k0, x0, x1, xn, kn, hy⟩ := h
  have src : ∀ (φ : Nat → ℝ) g i, g < d.energies → i < d.cells →
      d'.vol.v i * (d'.nu.m g i * d'.fiss.m g i * ∑ h ∈ range d'.energies, d'.chi.m h i * mirror d.cells φ (i + h * d'.cells)) =
      d.vol.v (d.cells - 1 - i) * (d.nu.m g (d.cells - 1 - i) * d.fiss.m g (d.cells - 1 - i) *
        ∑ h ∈ range d.energies, d.chi.m h (d.cells - 1 - i) * φ (d.cells - 1 - i + h * d.cells)) := fun φ g i hg hi => by
    rw [M.importance hi, M.vol i hi, M.nu g i hg hi, M.fiss g i hg hi]
  refine ⟨fun j => mirror d.cells (x j), k0, fun p hp => ?_, M.answers_adjoint hc (fun _ _ _ _ => rfl) x1, fun j => M.answers_adjoint hc (fun g i hg hi => ?_) (xn j), fun j => ?_, fun j p hp => ?_⟩
  · rw [M.cells, M.energies] at hp
    obtain ⟨i, e, hi, he, rfl⟩ := flat_surj hp
    dsimp only
    rw [mirror_flat hi]
    exact x0 _ (flat_lt (by omega) he)
  · dsimp only
    rw [src _ g i hg hi]
  · rw [kn j, M.cells, M.energies]
    dsimp only
    have src' := src
    rw [M.cells, M.energies] at src'
    congr 2
    · exact (double_mirror (fun g i hg hi => by rw [src' _ g i hg hi])).symm
    · exact (double_mirror (fun g i hg hi => by rw [src' _ g i hg hi, src' _ g i hg hi])).symm
  · rw [M.cells, M.energies] at hp ⊢
    have := mirror_sum (N := d.cells) (E := d.energies) (fun p => |x j p|)
    obtain ⟨i, e, hi, he, rfl⟩ := flat_surj hp
    dsimp only
    rw [mirror_flat hi, mirror_flat hi, hy j _ (flat_lt (by omega) he), ← this]
    rfl

end Verif.Solve

namespace Verif.Input

open Verif Outcome Finset

variable {rs : List Region} {E : Nat} {T : Tables} {alb alb' : Vec ℝ}

theorem cellNames_reverse (rs : List Region) : cellNames rs.reverse = (cellNames rs).reverse := by
  unfold cellNames
  rw [List.reverse_flatMap]
  congr 1
  funext r
  simp

theorem matAt_reverse {i : Nat} (hi : i < (cellNames rs).length) : matAt rs.reverse i = matAt rs ((cellNames rs).length - 1 - i) := by
  unfold matAt
  rw [cellNames_reverse, List.getD_eq_getElem?_getD, List.getD_eq_getElem?_getD, List.getElem?_reverse hi]

theorem before_reverse {α : Type} (f : α → ℝ) (l : List α) {k : Nat} (hk : k ≤ l.length) : before f l.reverse k = before f l l.length - before f l (l.length - k) := by
  induction k with
  | zero => simp [before]
  | succ k ih =>
    rw [before_succ f (by simpa using hk), ih (by omega), List.getElem_reverse]
    have := before_succ f (l := l) (k := l.length - (k + 1)) (by omega)
    rw [show l.length - (k + 1) + 1 = l.length - k by omega] at this
    have e : l[l.length - 1 - k]'(by omega) = l[l.length - (k + 1)]'(by omega) := by congr 1; omega
    rw [this, e]
    ring

theorem before_reverse_nat {α : Type} (f : α → ℕ) (l : List α) {k : Nat} (hk : k ≤ l.length) : before f l.reverse k + before f l (l.length - k) = before f l l.length := by
  induction k with
  | zero => simp [before]
  | succ k ih =>
    rw [before_succ f (by simpa using hk), List.getElem_reverse]
    have := before_succ f (l := l) (k := l.length - (k + 1)) (by omega)
    rw [show l.length - (k + 1) + 1 = l.length - k by omega] at this
    have e : l[l.length - 1 - k]'(by omega) = l[l.length - (k + 1)]'(by omega) := by congr 1; omega
    rw [e]
    have := ih (by omega)
    omega

/-- the faces seen from the other side -/
theorem spread_reverse {l : List (Nat × ℝ)} {b : Vec ℝ} (h0 : l ≠ []) (hp : ∀ q ∈ l, 1 ≤ q.1) (h : Spread l b) :
    Spread l.reverse ⟨b.n, fun i => b.v (b.n - 1) - b.v (b.n - 1 - i)⟩ := by
  have hl : 0 < l.length := List.length_pos_iff.2 h0
  have hall : before Prod.fst l l.length = (l.map Prod.fst).sum := by simp [before]
  have hend : b.v (b.n - 1) = before Prod.snd l l.length := by
    have := (C32_bounds h h0 hp).2.1 (l.length - 1) (by omega)
    rw [show l.length - 1 + 1 = l.length by omega, hall] at this
    rw [h.1, Nat.add_sub_cancel]
    exact this
  refine ⟨by rw [List.map_reverse, List.sum_reverse]; exact h.1, fun k hk j hj => ?_⟩
  have hk : k < l.length := by simpa using hk
  dsimp only
  rw [List.getElem_reverse] at hj ⊢
  have hm : l.length - 1 - k < l.length := by omega
  have hpos : (0 : ℝ) < l[l.length - 1 - k].1 := by exact_mod_cast hp _ (List.getElem_mem hm)
  have n1 := before_reverse_nat Prod.fst l hk.le
  have n2 := before_succ Prod.fst (l := l) hm
  have w2 := before_succ Prod.snd (l := l) hm
  rw [show l.length - 1 - k + 1 = l.length - k by omega] at n2 w2
  have key := h.2 (l.length - 1 - k) hm (l[l.length - 1 - k].1 - j) (Nat.sub_le _ _)
  have ei : b.n - 1 - (before Prod.fst l.reverse k + j) = before Prod.fst l (l.length - 1 - k) + (l[l.length - 1 - k].1 - j) := by
    rw [h.1, ← hall]
    omega
  rw [ei, key, hend, before_reverse Prod.snd l hk.le, w2, Nat.cast_sub hj]
  field_simp
  ring

/-- the problems of a slab and its mirror image -/
theorem CriticalCase.reverse {X : Set ℝ} (h : CriticalCase rs E T X) : CriticalCase rs.reverse E T X := by
  refine ⟨?_, ?_, ?_, ?_, ?_, ?_, ?_, ?_, ?_⟩
  all_goals simp only [Reaches, List.mem_reverse]
  exacts [h.widths, h.nu, h.chi, h.fiss, h.scatt, h.absorbs, h.somewhere, h.emitted, h.linked]

theorem mirrored_of (h0 : rs ≠ []) (hcells : ∀ q ∈ rs, 1 ≤ q.cells) {b b' : Vec ℝ} {d d' : Diffusion.Data} (h : DiffusionOf .slab rs E T alb 0 b d)
    (h' : DiffusionOf .slab rs.reverse E T alb' 0 b' d') : Solve.Mirrored d d' := by
  have hc := h.cells
  have hc' : d'.cells = d.cells := by rw [h'.cells, hc, cellNames_reverse, List.length_reverse]
  have hn : b.n = d.cells + 1 := by
    rw [h.faces.1, hc, cellNames_length, List.map_map]
    rfl
  have h0' : rs.map (fun r => (r.cells, r.width)) ≠ [] := by simpa using h0
  have hp : ∀ q ∈ rs.map (fun r => (r.cells, r.width)), 1 ≤ q.1 := fun x hx => by
    obtain ⟨r, hr, rfl⟩ := List.mem_map.1 hx
    exact hcells r hr
  have hs := spread_reverse h0' hp h.faces
  have hf := h'.faces
  rw [List.map_reverse] at hf
  have hb : ∀ i, i ≤ d.cells → b'.v i = b.v d.cells - b.v (d.cells - i) := fun i hi => by
    have := (spread_unique (by simpa using h0') (fun x hx => hp x (by simpa using hx)) hf hs).2 i (by show i < b.n; omega)
    rw [this]
    dsimp only
    rw [hn, Nat.add_sub_cancel]
  have hm : ∀ i, i < d.cells → matAt rs.reverse i = matAt rs (d.cells - 1 - i) := fun i hi => by
    rw [matAt_reverse (by rw [← hc]; exact hi), hc]
  have hsize : ∀ i, i < d.cells → d'.size.v i = d.size.v (d.cells - 1 - i) := fun i hi => by
    rw [h'.size i (by omega), h.size _ (by omega), hb i (by omega), hb (i + 1) hi, show d.cells - 1 - i + 1 = d.cells - i by omega, show d.cells - (i + 1) = d.cells - 1 - i by omega]
    ring
  refine ⟨hc', by rw [h.energies, h'.energies], hsize, fun i hi => ?_, fun i hi => ?_, fun e i he hi => ?_, fun e i he hi => ?_, fun e i he hi => ?_, fun e i he hi => ?_,
    fun e i he hi => ?_, fun e f i he hf hi => ?_⟩
  · rw [h'.vol i (by omega), h.vol _ (by omega), hb i (by omega), hb (i + 1) hi, show d.cells - 1 - i + 1 = d.cells - i by omega, show d.cells - (i + 1) = d.cells - 1 - i by omega]
    simp only [Mesh.area, intervalIntegral.integral_const, smul_eq_mul]
    ring
  · rw [h'.surf i (by omega), h.surf _ (by omega)]
    rfl
  all_goals rw [h.energies] at he
  · rw [h'.D e i he (by omega), h.D e _ he (by omega), hm i hi]; rfl
  · rw [h'.tot e i he (by omega), h.tot e _ he (by omega), hm i hi]; rfl
  · rw [h'.fiss e i he (by omega), h.fiss e _ he (by omega), hm i hi]; rfl
  · rw [h'.nu e i he (by omega), h.nu e _ he (by omega), hm i hi]; rfl
  · rw [h'.chi e i he (by omega), h.chi e _ he (by omega), hm i hi]; rfl
  · rw [h.energies] at hf
    rw [h'.scatt e f i he hf (by omega), h.scatt e f _ he hf (by omega), hm i hi]; rfl

end Verif.Input
