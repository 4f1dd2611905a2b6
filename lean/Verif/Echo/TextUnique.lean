import Verif.Echo.SaidData
import Verif.Input.RunLemmas

/-! # The text that is shown of a file is determined by the file -/

namespace Verif.Echo

open Verif Input

noncomputable section

variable {v : Voice} {lib : Lib} {lines mats mats' : List Text} {g : Mesh.Grid} {α : Type}

theorem Parts.unique {R : α → List Text → Prop} {xs : List α} (hR : ∀ x ∈ xs, ∀ s s', R x s → R x s' → s = s') {t t' : List Text} (h : Parts R xs t) (h' : Parts R xs t') : t = t' := by
  obtain ⟨ts, h1, rfl⟩ := h
  obtain ⟨ts', h2, rfl⟩ := h'
  congr 1
  induction h1 generalizing ts' with
  | nil => cases h2; rfl
  | cons a _ ih =>
    cases h2 with
    | cons b h2 => rw [hR _ (by simp) _ _ a b, ih (fun x hx => hR x (by simp [hx])) _ h2]

theorem Shown.unique {w t t' : Text} (h : Shown v lib w t) (h' : Shown v lib w t') : t = t' := by
  cases h with
  | word h =>
    cases h' with
    | word => rfl
    | number hn => rw [hn _ _ rfl] at h; cases h
  | number hn hx =>
    cases h' with
    | word h => rw [hn _ _ rfl] at h; cases h
    | number _ hx' =>
      rw [hx] at hx'
      cases hx'
      rfl

theorem Row.unique {ws : List Text} {t t' : Text} (h : Row v lib ws t) (h' : Row v lib ws t') : t = t' := by
  obtain ⟨ts, h1, rfl⟩ := h
  obtain ⟨ts', h2, rfl⟩ := h'
  congr 1
  induction h1 generalizing ts' with
  | nil => cases h2; rfl
  | cons a _ ih =>
    cases h2 with
    | cons b h2 => rw [a.unique b, ih _ h2]

theorem column_eq {title : Text} {x y : Vec ℝ} (h : x.n = y.n) (hv : ∀ i, i < y.n → x.v i = y.v i) : column v title x = column v title y := by
  unfold column
  rw [h]
  congr 2
  exact List.map_congr_left fun i hi => by rw [hv i (List.mem_range.1 hi)]

theorem ShapeText.unique {t t' : List Text} (h : ShapeText v lib lines g t) (h' : ShapeText v lib lines g t') : t = t' := by
  obtain ⟨c, w, vol, mid, row, -, -, -, a4, a5, a6, a7, a8, rfl⟩ := h
  obtain ⟨c', w', vol', mid', row', -, -, -, b4, b5, b6, b7, b8, rfl⟩ := h'
  rw [a8.unique b8, column_eq (x := vol) (y := vol') (a4.trans b4.symm) fun i hi => by rw [b4] at hi; rw [a5 i hi, b5 i hi],
    column_eq (x := mid) (y := mid') (a6.trans b6.symm) fun i hi => by rw [b6] at hi; rw [a7 i hi, b7 i hi]]

theorem SettingText.unique {x : Calc.Kind × String} {t t' : List Text} (h : SettingText lines x t) (h' : SettingText lines x t') : t = t' := by
  obtain ⟨a, b, w, ws, h1, h2, rfl⟩ := h
  obtain ⟨a', b', w', ws', h1', h2', rfl⟩ := h'
  obtain ⟨rfl, rfl⟩ := block_unique h1 h1'
  cases cardIn_unique h2 h2'
  rfl

theorem LawText.unique {w key : Text} {n : Nat} {t t' : List Text} (h : LawText v lib lines w key n t) (h' : LawText v lib lines w key n t') : t = t' := by
  obtain ⟨a, b, ws, s, h1, h2, -, h4, rfl⟩ := h
  obtain ⟨a', b', ws', s', h1', h2', -, h4', rfl⟩ := h'
  obtain ⟨rfl, rfl⟩ := block_unique h1 h1'
  obtain rfl := cardIn_unique h2 h2'
  rw [h4.unique h4']

theorem GroupsText.unique {E : Nat} {name : String} {w : Text} {t t' : List Text} (h : GroupsText v lib lines E name w t) (h' : GroupsText v lib lines E name w t') : t = t' := by
  obtain ⟨s, h1, rfl⟩ := h
  obtain ⟨s', h1', rfl⟩ := h'
  rw [h1.unique (fun _ _ _ _ a b => a.unique b) h1']

theorem MatrixText.unique {E : Nat} {w : Text} {t t' : List Text} (h : MatrixText v lib lines E w t) (h' : MatrixText v lib lines E w t') : t = t' := by
  refine Parts.unique (fun e _ s s' a b => ?_) h h'
  obtain ⟨u, h1, rfl⟩ := a
  obtain ⟨u', h1', rfl⟩ := b
  rw [h1.unique (fun _ _ _ _ a b => a.unique b) h1']

/-- The lists of materials of two texts: sorted, with the names of all cells. -/
structure Both (g : Mesh.Grid) (mats mats' : List Text) : Prop where
  sorted : mats.Pairwise (· < ·)
  sorted' : mats'.Pairwise (· < ·)
  all : ∀ i, i < g.cells → (g.mats.v i).name.toList ∈ mats
  all' : ∀ i, i < g.cells → (g.mats.v i).name.toList ∈ mats'

theorem Both.filter (h : Both g mats mats') : mats.filter (fun w => (cellsOf g w).length ≠ 0) = mats'.filter (fun w => (cellsOf g w).length ≠ 0) := by
  have nd : ∀ {l : List Text}, l.Pairwise (· < ·) → l.Nodup := fun hl => hl.imp fun hlt e => by
    rw [e] at hlt
    exact List.lt_irrefl _ hlt
  have mem : ∀ {l : List Text}, (∀ i, i < g.cells → (g.mats.v i).name.toList ∈ l) → ∀ w, w ∈ l.filter (fun w => (cellsOf g w).length ≠ 0) ↔ (cellsOf g w).length ≠ 0 := fun hl w => by
    rw [List.mem_filter]
    refine ⟨fun hw => by simpa using hw.2, fun hw => ⟨?_, by simpa using hw⟩⟩
    obtain ⟨i, hi⟩ := List.exists_mem_of_length_pos (Nat.pos_of_ne_zero hw)
    obtain ⟨h1, h2⟩ := List.mem_filter.1 hi
    have := hl i (List.mem_range.1 h1)
    rwa [of_decide_eq_true h2] at this
  have s1 := h.sorted.filter (fun w => (cellsOf g w).length ≠ 0)
  have s2 := h.sorted'.filter (fun w => (cellsOf g w).length ≠ 0)
  refine List.Perm.eq_of_pairwise (le := (· < ·)) (fun a b _ _ h1 h2 => absurd h2 (List.lt_asymm h1)) s1 s2 ?_
  exact (List.perm_ext_iff_of_nodup (nd s1) (nd s2)).2 fun w => by rw [mem h.all, mem h.all']

theorem CellsText.unique {R : Text → List Text → Prop} (hR : ∀ w s s', R w s → R w s' → s = s') (hb : Both g mats mats') {title : Text} {t t' : List Text}
    (h : CellsText g mats R title t) (h' : CellsText g mats' R title t') : t = t' := by
  obtain ⟨s, h1, rfl⟩ := h
  obtain ⟨s', h1', rfl⟩ := h'
  have drop : ∀ {l : List Text} {s : List Text}, Parts (fun w => Parts (fun _ => R w) (cellsOf g w)) l s →
      Parts (fun w => Parts (fun _ => R w) (cellsOf g w)) (l.filter fun w => (cellsOf g w).length ≠ 0) s := fun hp =>
    Parts.filter (hp.imp fun w _ t ht => ⟨fun _ => ht, fun hn => by
      have h0 : cellsOf g w = [] := by simpa using hn
      rw [h0] at ht
      obtain ⟨ts, h1, rfl⟩ := ht
      cases h1
      rfl⟩)
  have a := drop h1
  rw [hb.filter] at a
  rw [a.unique (fun w _ s s' x y => x.unique (fun _ _ s s' p q => hR w s s' p q) y) (drop h1')]

theorem NuclearText.unique (hb : Both g mats mats') {d : Prop} {t t' : List Text} (h : NuclearText v lib lines g mats d t) (h' : NuclearText v lib lines g mats' d t') : t = t' := by
  obtain ⟨t1, t2, t3, t4, t5, t6, a1, a2, a3, a4, a5, a5', a6, rfl⟩ := h
  obtain ⟨s1, s2, s3, s4, s5, s6, b1, b2, b3, b4, b5, b5', b6, rfl⟩ := h'
  have hG : ∀ {name : String} (w : Text) (s s' : List Text), GroupsText v lib lines g.energies name w s → GroupsText v lib lines g.energies name w s' → s = s' := fun _ _ _ x y => x.unique y
  have h5 : t5 = s5 := by
    by_cases hd : d
    · exact (a5 hd).unique hG hb (b5 hd)
    · rw [a5' hd, b5' hd]
  rw [a1.unique hG hb b1, a2.unique hG hb b2, a3.unique hG hb b3, a4.unique hG hb b4, h5, a6.unique (fun _ _ _ x y => x.unique y) hb b6]

theorem ValuesText.unique {key : String} (hk : Clear lib lines key) {title : Text} {t t' : List Text} (h : ValuesText v lib lines key title t) (h' : ValuesText v lib lines key title t') : t = t' := by
  obtain ⟨c, ws, x, h1, h2, rfl⟩ := h
  obtain ⟨c', ws', x', h1', h2', rfl⟩ := h'
  cases card_unique h1 h1'
  obtain ⟨y, hy⟩ := hk c ws h1
  obtain ⟨a1, a2⟩ := lists_unique h2 hy
  obtain ⟨b1, b2⟩ := lists_unique h2' hy
  exact column_eq (a1.trans b1.symm) fun i hi => by rw [b1] at hi; rw [a2 i hi, b2 i hi]

theorem HeatText.unique (hT : Clear lib lines "temperatures") (hq : Clear lib lines "heat_sources") (hb : Both g mats mats') {ks : List Calc.Kind} {t t' : List Text}
    (h : HeatText v lib lines g mats ks t) (h' : HeatText v lib lines g mats' ks t') : t = t' := by
  obtain ⟨t1, t2, t3, a1, a2, a3, rfl⟩ := h
  obtain ⟨s1, s2, s3, b1, b2, b3, rfl⟩ := h'
  have h1 : t1 = s1 := by
    by_cases hk : Calc.Kind.transport ∈ ks ∨ Calc.Kind.diffusion ∈ ks
    · obtain ⟨c, w, s, e1, e2, rfl⟩ := a1.1 hk
      obtain ⟨c', w', s', e1', e2', rfl⟩ := b1.1 hk
      cases card_unique e1 e1'
      rw [e2.unique e2']
    · exact (a1.2 hk).unique hq (b1.2 hk)
  rw [h1, a2.unique (fun _ _ _ x y => x.unique y) hb b2, a3.unique hT b3]

theorem names_unique {ws : List Text} {ks ks' : List Calc.Kind} (h : Names ws ks) (h' : Names ws ks') : ks = ks' := by
  induction h generalizing ks' with
  | nil => cases h'; rfl
  | @cons w k ws ks a _ ih =>
    cases h' with
    | @cons _ k' _ ks' b h2 =>
      rw [ih h2]
      congr 1
      simp only [solverNames, List.mem_cons, Prod.mk.injEq, List.not_mem_nil, or_false] at a b
      rcases a with ⟨rfl, rfl⟩ | ⟨rfl, rfl⟩ | ⟨rfl, rfl⟩ | ⟨rfl, rfl⟩ | ⟨rfl, rfl⟩ <;> rcases b with ⟨b, rfl⟩ | ⟨b, rfl⟩ | ⟨b, rfl⟩ | ⟨b, rfl⟩ | ⟨b, rfl⟩ <;> first | rfl | (exfalso; revert b; decide)

theorem FileText.unique {p : Calc.Plant} (hT : Clear lib lines "temperatures") (hq : Clear lib lines "heat_sources") {t t' : List Text} (h : FileText v lib lines p t)
    (h' : FileText v lib lines p t') : t = t' := by
  obtain ⟨c, ws, ks, mats, t1, t2, t3, a1, a2, a3, -, a5, a6, a7, a8, a9, rfl⟩ := h
  obtain ⟨c', ws', ks', mats', s1, s2, s3, b1, b2, b3, -, b5, b6, b7, b8, b9, rfl⟩ := h'
  cases card_unique a1 b1
  obtain rfl := names_unique a2 b2
  have e1 : t1 = s1 := by
    by_cases hk : ∃ k ∈ ks, k ≠ .kinetics
    · exact (a6 hk).unique (b6 hk)
    · have hk' : ∀ k ∈ ks, k = .kinetics := fun k hm => by
        by_contra hn
        exact hk ⟨k, hm, hn⟩
      rw [a7 hk', b7 hk']
  have e2 : t2 = s2 := a8.unique (fun _ _ _ _ x y => x.unique y) b8
  have e3 : t3 = s3 := by
    by_cases hk : ∃ k ∈ ks, k ≠ .kinetics
    · have hb : Both p.grid mats mats' := ⟨a3, b3, a5 hk, b5 hk⟩
      obtain ⟨ts, h1, rfl⟩ := a9
      obtain ⟨ts', h2, rfl⟩ := b9
      congr 1
      have key : ∀ k s s', DataText v lib lines p mats ks k s → DataText v lib lines p mats' ks k s' → s = s' := fun k s s' x y => by
        cases k with
        | transport => exact NuclearText.unique hb x y
        | diffusion => exact NuclearText.unique hb x y
        | ads => exact NuclearText.unique hb x y
        | heat => exact HeatText.unique hT hq hb x y
        | kinetics => exact Eq.trans x (Eq.symm y)
        | undefined => exact absurd x id
        | coupled => exact absurd x id
      clear a2 b2 a5 a6 a7 a8 b5 b6 b7 b8 e1 e2 hk a1 b1
      generalize ks = ls at h1 h2 key
      revert h1 h2
      suffices ∀ l : List Calc.Kind, List.Forall₂ (DataText v lib lines p mats ls) l ts → List.Forall₂ (DataText v lib lines p mats' ls) l ts' → ts = ts' from this ls
      intro l h1
      induction h1 generalizing ts' with
      | nil => intro h2; cases h2; rfl
      | cons a _ ih =>
        intro h2
        cases h2 with
        | cons b h2 => rw [key _ _ _ a b, ih _ h2]
    · have hk' : ∀ k ∈ ks, k = .kinetics := fun k hm => by
        by_contra hn
        exact hk ⟨k, hm, hn⟩
      have conv : ∀ {m : List Text} {s : List Text}, Parts (DataText v lib lines p m ks) ks s → Parts (fun _ s => s = kineticsText v p.kinetics) ks s := fun hp => hp.imp fun k hm s hs => by
        rw [hk' k hm] at hs
        exact hs
      exact (conv a9).unique (fun _ _ _ _ x y => x.trans y.symm) (conv b9)
  rw [e1, e2, e3]

end

end Verif.Echo
