import Verif.Gen.Model
import Verif.Gen.Spec
import Mathlib.Tactic.Linarith
import Mathlib.Tactic.Ring

/-! # Lemmas about the model of the generator -/

namespace Verif.Gen

open Verif Input Finset

noncomputable section

@[simp] theorem done_bind {α β : Type} (a : α) (f : α → Run β) : ((Run.done a : Run α) >>= f) = f a := rfl
@[simp] theorem leaves_bind {α β : Type} (m : Missing) (f : α → Run β) : ((Run.leaves m : Run α) >>= f) = .leaves m := rfl
@[simp] theorem fails_bind {α β : Type} (e : Err) (f : α → Run β) : ((Run.fails e : Run α) >>= f) = .fails e := rfl
@[simp] theorem nonfinite_bind {α β : Type} (f : α → Run β) : ((Run.nonfinite : Run α) >>= f) = .nonfinite := rfl

theorem entry_ok {v : Vec ℝ} {i : Nat} (h : i < v.n) : entry v i = .done (v.v i) := if_pos h
theorem assign_ok {v : Vec ℝ} {i : Nat} {x : ℝ} (h : i < v.n) : assign v i x = .done ⟨v.n, Function.update v.v i x⟩ := if_pos h

theorem item_ok {α : Type} {l : List α} {i : Nat} {a : α} (h : l[i]? = some a) : item l i = .done a := by simp [item, h]
theorem lookup_ok {α : Type} {l : List α} {i : Nat} {a : α} (h : l[i]? = some a) : lookup l i = .done a := by simp [lookup, h]

theorem collect_ok {β : Type} {f : Nat → Run β} {g : Nat → β} : ∀ n, (∀ i, i < n → f i = .done (g i)) → collect f n = .done ((List.range n).map g)
  | 0, _ => rfl
  | n + 1, h => by
    rw [collect, collect_ok n (fun i hi => h i (by omega)), done_bind, h n (by omega), done_bind, List.range_succ, List.map_append]
    rfl

theorem each_ok {α β : Type} {f : α → Run β} {g : α → β} : ∀ l : List α, (∀ a ∈ l, f a = .done (g a)) → each f l = .done (l.map g)
  | [], _ => rfl
  | a :: l, h => by
    rw [each, h a (by simp), done_bind, each_ok l (fun b hb => h b (by simp [hb])), done_bind]
    rfl

/-! ### one universe -/

/-- What holds of the constants after `k` passes of the correcting loop. -/
structure Half (o : Options) (G k : Nat) (c d : Consts) : Prop where
  xs : ∀ q, (d.xs q).n = G
  s0n : d.s0.n = G * G
  scatt0 : d.scatt0 = c.scatt0
  scatt1 : d.scatt1 = c.scatt1
  early : ∀ q e, e < k → (d.xs q).v e = wanted o c q e
  late : ∀ q e, k ≤ e → (d.xs q).v e = (c.xs q).v e
  s0 : ∀ e f, e < G → f < G → d.s0.v (e * G + f) = if e < k then wantedScatt o G c e f else scattOf G c e f
  total : o.solver = .diffusion → d.xs .total = c.xs .total

theorem diag {G k e f : Nat} (he : e < G) (hf : f < G) (hk : k < G) : e * G + f = k + k * G ↔ e = k ∧ f = k := by
  constructor
  · intro h
    have h1 : (e * G + f) / G = e := by rw [Nat.mul_comm, Nat.mul_add_div (by omega), Nat.div_eq_of_lt hf]; rfl
    have h2 : (k + k * G) / G = k := by rw [Nat.add_comm, Nat.mul_comm, Nat.mul_add_div (by omega), Nat.div_eq_of_lt hk]; rfl
    rw [h, h2] at h1
    subst h1
    exact ⟨rfl, by omega⟩
  · rintro ⟨rfl, rfl⟩; omega

theorem correct_step {o : Options} {G k : Nat} {c d : Consts} (hc : Complete G c) (hk : k < G) (h : Half o G k c d)
    (hz : o.solver = .diffusion → o.transport = false → (c.xs .total).v k ≠ 0) : ∃ d', correctGroup o G k d = .done d' ∧ Half o G (k + 1) c d' := by
  have hkG : k + k * G < G * G := by
    have : (k + 1) * G ≤ G * G := Nat.mul_le_mul_right _ hk
    rw [Nat.add_mul] at this
    omega
  unfold correctGroup
  match hs : o.solver, ht : o.transport with
  | .transport, true =>
    simp only [if_true]
    rw [entry_ok (by rw [h.xs]; exact hk), done_bind, entry_ok (by rw [h.scatt1, hc.scatt1]; exact hk), done_bind, assign_ok (by rw [h.xs]; exact hk), done_bind,
      entry_ok (by rw [h.s0n]; exact hkG), done_bind, assign_ok (by rw [h.s0n]; exact hkG), done_bind]
    refine ⟨_, rfl, ?_, h.s0n, h.scatt0, h.scatt1, ?_, ?_, ?_, fun h' => by simp [hs] at h'⟩
    · intro q
      rcases eq_or_ne q .total with rfl | hq
      · simpa using h.xs .total
      · simpa [Function.update_of_ne hq] using h.xs q
    · intro q e he
      rcases eq_or_ne q .total with rfl | hq
      · rcases eq_or_ne e k with rfl | hne
        · simp [wanted, hs, ht, h.late .total e le_rfl, h.scatt1]
        · simp only [Function.update_self, Function.update_of_ne hne]
          exact h.early .total e (by omega)
      · simp only [Function.update_of_ne hq]
        rcases eq_or_ne e k with rfl | hne
        · rw [h.late q e le_rfl]
          cases q <;> simp_all [wanted]
        · exact h.early q e (by omega)
    · intro q e he
      rcases eq_or_ne q .total with rfl | hq
      · simp only [Function.update_self, Function.update_of_ne (show e ≠ k by omega)]
        exact h.late .total e (by omega)
      · simp only [Function.update_of_ne hq]
        exact h.late q e (by omega)
    · intro e f he hf
      by_cases hd : e = k ∧ f = k
      · obtain ⟨rfl, rfl⟩ := hd
        have hi : f + f * G = f * G + f := by omega
        simp only [hi, Function.update_self]
        rw [h.s0 f f hf hf, if_neg (lt_irrefl _), if_pos (by omega), h.scatt1]
        simp [wantedScatt, hs, ht]
      · have : e * G + f ≠ k + k * G := fun h' => hd ((diag he hf hk).1 h')
        simp only [Function.update_of_ne this]
        rw [h.s0 e f he hf]
        rcases lt_trichotomy e k with h1 | h1 | h1
        · rw [if_pos h1, if_pos (by omega)]
        · subst h1
          rw [if_neg (lt_irrefl _), if_pos (by omega), wantedScatt, if_neg (fun h' => hd ⟨rfl, h'.2.2.symm⟩)]
        · rw [if_neg (by omega), if_neg (by omega)]
  | .transport, false =>
    simp only [Bool.false_eq_true, if_false]
    refine ⟨d, rfl, h.xs, h.s0n, h.scatt0, h.scatt1, ?_, fun q e he => h.late q e (by omega), ?_, h.total⟩
    · intro q e he
      rcases eq_or_ne e k with rfl | hne
      · rw [h.late q e le_rfl]; cases q <;> simp [wanted, hs, ht]
      · exact h.early q e (by omega)
    · intro e f he hf
      have : wantedScatt o G c e f = scattOf G c e f := by simp [wantedScatt, ht]
      rw [h.s0 e f he hf, this]; simp
  | .diffusion, true =>
    simp only [Bool.not_true, Bool.false_eq_true, if_false]
    refine ⟨d, rfl, h.xs, h.s0n, h.scatt0, h.scatt1, ?_, fun q e he => h.late q e (by omega), ?_, h.total⟩
    · intro q e he
      rcases eq_or_ne e k with rfl | hne
      · rw [h.late q e le_rfl]; cases q <;> simp [wanted, hs, ht]
      · exact h.early q e (by omega)
    · intro e f he hf
      have : wantedScatt o G c e f = scattOf G c e f := by simp [wantedScatt, hs]
      rw [h.s0 e f he hf, this]; simp
  | .diffusion, false =>
    have hT := h.total hs
    have hz' := hz hs ht
    simp only [Bool.not_false, if_true]
    rw [entry_ok (by rw [h.scatt0, hc.scatt0]; exact hk), done_bind, entry_ok (by rw [h.xs]; exact hk), done_bind, if_neg (by rw [hT]; norm_num; exact hz'),
      assign_ok (by rw [h.xs]; exact hk), done_bind]
    refine ⟨_, rfl, ?_, h.s0n, h.scatt0, h.scatt1, ?_, ?_, ?_, ?_⟩
    · intro q
      rcases eq_or_ne q .diffCoeff with rfl | hq
      · simpa using h.xs .diffCoeff
      · simpa [Function.update_of_ne hq] using h.xs q
    · intro q e he
      rcases eq_or_ne q .diffCoeff with rfl | hq
      · rcases eq_or_ne e k with rfl | hne
        · simp only [Function.update_self, wanted, hs, ht, h.scatt0, hT]
          norm_num
        · simp only [Function.update_self, Function.update_of_ne hne]
          exact h.early .diffCoeff e (by omega)
      · simp only [Function.update_of_ne hq]
        rcases eq_or_ne e k with rfl | hne
        · rw [h.late q e le_rfl]
          cases q <;> simp_all [wanted]
        · exact h.early q e (by omega)
    · intro q e he
      rcases eq_or_ne q .diffCoeff with rfl | hq
      · simp only [Function.update_self, Function.update_of_ne (show e ≠ k by omega)]
        exact h.late .diffCoeff e (by omega)
      · simp only [Function.update_of_ne hq]
        exact h.late q e (by omega)
    · intro e f he hf
      have : wantedScatt o G c e f = scattOf G c e f := by simp [wantedScatt, hs]
      simp only
      rw [h.s0 e f he hf, this]; simp
    · intro _
      simpa [Function.update_of_ne (show Key.total ≠ Key.diffCoeff by decide)] using hT

theorem correct_all {o : Options} {G : Nat} {c : Consts} (hc : Complete G c) (hz : o.solver = .diffusion → o.transport = false → ∀ e, e < G → (c.xs .total).v e ≠ 0) :
    ∀ k, k ≤ G → ∃ d, repeatFor (correctGroup o G) k c = .done d ∧ Half o G k c d
  | 0, _ => ⟨c, rfl, hc.xs, hc.s0, rfl, rfl, fun _ _ h => by omega, fun _ _ _ => rfl, fun _ _ _ _ => by simp [scattOf], fun _ => rfl⟩
  | k + 1, hk => by
    obtain ⟨d, hd, h⟩ := correct_all hc hz k (by omega)
    rw [repeatFor, hd, done_bind]
    exact correct_step hc (by omega) h (fun a b => hz a b k (by omega))

/-- What the constants of a universe have to be. -/
structure Got (o : Options) (G : Nat) (T : ℝ) (u : Universe) (g : GroupConstants) : Prop where
  temp : g.temp = T
  groups : g.energyGroups = G
  size : g.size = G
  n : ∀ k, (g.set k).n = G
  set : ∀ k e, e < G → (g.set k).v e = wanted o (chosen o u) k e
  scatt : ∀ e f, e < G → f < G → g.scattMatrix0 e f = wantedScatt o G (chosen o u) e f

theorem range_map_getD {α : Type} {n i : Nat} (h : i < n) (g : Nat → α) (a : α) : ((List.range n).map g).getD i a = g i := by
  simp [List.getD_eq_getElem?_getD, h]

theorem readUniverse_ok {o : Options} {G : Nat} {T : ℝ} {u : Universe} (hG : (u.inf.xs .total).n = G) (hc : Complete G (chosen o u))
    (hz : o.solver = .diffusion → o.transport = false → ∀ e, e < G → ((chosen o u).xs .total).v e ≠ 0) : ∃ g, readUniverse o T u = .done g ∧ Got o G T u g := by
  obtain ⟨d, hd, h⟩ := correct_all hc hz G le_rfl
  have hch : (if o.leakage = false then u.inf else u.b1) = chosen o u := by
    unfold chosen; cases o.leakage <;> simp
  have hm : collect (fun i => collect (fun j => entry d.s0 (j + i * G)) G) G = .done ((List.range G).map (fun i => (List.range G).map (fun j => d.s0.v (j + i * G)))) := by
    refine collect_ok _ (fun i hi => collect_ok _ (fun j hj => entry_ok ?_))
    have : (i + 1) * G ≤ G * G := Nat.mul_le_mul_right _ hi
    rw [Nat.add_mul] at this
    rw [h.s0n]; omega
  unfold readUniverse
  simp only [hG, hch]
  rw [hd, done_bind, hm, done_bind]
  refine ⟨_, rfl, rfl, h.xs .total, rfl, h.xs, fun k e he => h.early k e he, fun e f he hf => ?_⟩
  simp only
  rw [range_map_getD he, range_map_getD hf, show f + e * G = e * G + f by omega, h.s0 e f he hf, if_pos he]

/-- The constants the model reads from a universe. -/
def got (o : Options) (T : ℝ) (u : Universe) : GroupConstants :=
  match readUniverse o T u with
  | .done g => g
  | _ => ⟨fun _ => ⟨0, fun _ => 0⟩, 0, fun _ _ => 0, 0, 0⟩

theorem got_ok {o : Options} {G : Nat} {T : ℝ} {u : Universe} (hG : (u.inf.xs .total).n = G) (hc : Complete G (chosen o u))
    (hz : o.solver = .diffusion → o.transport = false → ∀ e, e < G → ((chosen o u).xs .total).v e ≠ 0) :
    readUniverse o T u = .done (got o T u) ∧ Got o G T u (got o T u) := by
  obtain ⟨g, hg, h⟩ := readUniverse_ok hG hc hz (T := T)
  unfold got
  rw [hg]
  exact ⟨rfl, h⟩

/-! ### all universes and all files -/

/-- A material after the universes `us` of a file have been read. -/
def grown (o : Options) (T : ℝ) (us : List Universe) (m : Material) : Material :=
  match us.find? (fun u => u.name = m.matNumber) with
  | some u => ⟨m.matNumber, m.groupConstantsList ++ [got o T u]⟩
  | none => m

theorem grown_name (o : Options) (T : ℝ) (us : List Universe) (m : Material) : (grown o T us m).matNumber = m.matNumber := by
  unfold grown; cases us.find? (fun u => u.name = m.matNumber) <;> rfl

theorem add_ok {name : Text} {g : GroupConstants} : ∀ ms : List Material, name ∈ ms.map Material.matNumber → (ms.map Material.matNumber).Nodup →
    (∀ m ∈ ms, m.matNumber = name → g.temp ∉ m.groupConstantsList.map GroupConstants.temp) →
    addGroupConstants name g ms = .done (ms.map (fun m => if m.matNumber = name then ⟨m.matNumber, m.groupConstantsList ++ [g]⟩ else m))
  | [], h, _, _ => by simp at h
  | m :: ms, h, hn, ht => by
    rw [List.map_cons, List.nodup_cons] at hn
    unfold addGroupConstants
    by_cases hm : m.matNumber = name
    · rw [if_pos hm, if_neg (ht m (by simp) hm), List.map_cons, if_pos hm]
      congr 2
      rw [List.map_congr_left (g := id), List.map_id]
      intro x hx
      rw [if_neg]; · rfl
      intro hx'
      exact hn.1 (by rw [hm, ← hx']; exact List.mem_map_of_mem hx)
    · rw [if_neg hm, add_ok ms (by simpa [Ne.symm hm] using h) hn.2 (fun x hx => ht x (by simp [hx])), done_bind, List.map_cons, if_neg hm]

theorem read_ok {o : Options} {T : ℝ} : ∀ (us : List Universe) (ms : List Material), (∀ u ∈ us, readUniverse o T u = .done (got o T u) ∧ (got o T u).temp = T) →
    (us.map Universe.name).Nodup → (∀ u ∈ us, u.name ∈ ms.map Material.matNumber) → (ms.map Material.matNumber).Nodup →
    (∀ m ∈ ms, T ∉ m.groupConstantsList.map GroupConstants.temp ∨ m.matNumber ∉ us.map Universe.name) →
    readSerpentOutput o T us ms = .done (ms.map (grown o T us))
  | [], ms, _, _, _, _, _ => by
    rw [readSerpentOutput, List.map_congr_left (g := id) (fun m _ => by simp [grown]), List.map_id]
  | u :: us, ms, hr, hn, hin, hms, ht => by
    rw [List.map_cons, List.nodup_cons] at hn
    have hu := hr u (by simp)
    have hnames : (ms.map (fun m => if m.matNumber = u.name then (⟨m.matNumber, m.groupConstantsList ++ [got o T u]⟩ : Material) else m)).map Material.matNumber =
        ms.map Material.matNumber := by
      rw [List.map_map]
      refine List.map_congr_left (fun m _ => ?_)
      simp only [Function.comp_apply]
      split <;> rfl
    rw [readSerpentOutput, hu.1, done_bind, add_ok ms (hin u (by simp)) hms, done_bind, read_ok us _ (fun x hx => hr x (by simp [hx])) hn.2, List.map_map]
    · congr 1
      refine List.map_congr_left (fun m hm => ?_)
      simp only [Function.comp_apply]
      by_cases h : m.matNumber = u.name
      · rw [if_pos h]
        have hf : us.find? (fun x => x.name = m.matNumber) = none := by
          rw [List.find?_eq_none]
          intro x hx hx'
          exact hn.1 (by rw [← h, ← of_decide_eq_true hx']; exact List.mem_map_of_mem hx)
        simp only [grown, hf, List.find?_cons, h.symm, decide_true]
      · rw [if_neg h]
        have : decide (u.name = m.matNumber) = false := by simpa using fun h' => h h'.symm
        simp only [grown, List.find?_cons, this]
    · intro x hx
      rw [hnames]
      exact hin x (by simp [hx])
    · rw [hnames]; exact hms
    · intro m hm
      obtain ⟨m', hm', rfl⟩ := List.mem_map.1 hm
      by_cases h : m'.matNumber = u.name
      · right
        rw [if_pos h]
        simpa [h] using hn.1
      · rw [if_neg h]
        rcases ht m' hm' with h1 | h1
        · exact .inl h1
        · exact .inr (fun h2 => h1 (by simp [h2] ))
    · intro m hm h
      rw [hu.2]
      rcases ht m hm with h1 | h1
      · exact h1
      · exact absurd (by simp [h]) h1

theorem create_ok : ∀ (us : List Universe) (ms : List Material), (ms.map Material.matNumber ++ us.map Universe.name).Nodup →
    createMaterials us ms = .done (ms ++ us.map (fun u => ⟨u.name, []⟩))
  | [], ms, _ => by simp [createMaterials]
  | u :: us, ms, h => by
    have h1 : u.name ∉ ms.map Material.matNumber := by
      intro h'
      exact (List.nodup_append.1 h).2.2 _ h' _ (by simp) rfl
    rw [createMaterials, if_neg h1, create_ok us _ (by simpa using h)]
    simp

/-- A material with nothing but a name. -/
def bare (w : Text) : Material := ⟨w, []⟩

theorem readAll_ok {o : Options} {names : List Text} (hn : names.Nodup) : ∀ (fs done : List (ℝ × List Universe)), ((done ++ fs).map Prod.fst).Nodup →
    (∀ q ∈ done ++ fs, (q.2.map Universe.name).Perm names) →
    (∀ q ∈ done ++ fs, ∀ u ∈ q.2, readUniverse o q.1 u = .done (got o q.1 u) ∧ (got o q.1 u).temp = q.1) →
    readAll o fs (names.map (fun w => ⟨w, done.filterMap (fun q => (q.2.find? (fun u => u.name = w)).map (got o q.1))⟩)) =
      .done (names.map (fun w => ⟨w, (done ++ fs).filterMap (fun q => (q.2.find? (fun u => u.name = w)).map (got o q.1))⟩))
  | [], done, _, _, _ => by simp [readAll]
  | q :: fs, done, ht, hs, hr => by
    have hq := hs q (by simp)
    have hnm : ∀ d : List (ℝ × List Universe), ((names.map (fun w => (⟨w, d.filterMap (fun q => (q.2.find? (fun u => u.name = w)).map (got o q.1))⟩ : Material))).map
        Material.matNumber) = names := by
      intro d
      rw [List.map_map]
      exact List.map_id names
    have key := readAll_ok hn fs (done ++ [q]) (by simpa using ht) (by simpa using hs) (by simpa using hr)
    rw [readAll, read_ok q.2 _ (hr q (by simp)) (hq.nodup_iff.2 hn), done_bind]
    · rw [List.append_assoc, List.singleton_append] at key
      rw [← key]
      congr 1
      rw [List.map_map]
      refine List.map_congr_left (fun w hw => ?_)
      simp only [Function.comp_apply, grown]
      cases hf : q.2.find? (fun u => u.name = w) with
      | some u => simp [hf, List.filterMap_append]
      | none => simp [hf, List.filterMap_append]
    · intro u hu
      rw [hnm]
      exact hq.subset (List.mem_map_of_mem hu)
    · rw [hnm]; exact hn
    · intro m hm
      obtain ⟨w, hw, rfl⟩ := List.mem_map.1 hm
      left
      intro hT
      obtain ⟨g, hg, hgT⟩ := List.mem_map.1 hT
      obtain ⟨p, hp, hpu⟩ := List.mem_filterMap.1 hg
      obtain ⟨u, hu, rfl⟩ := Option.map_eq_some_iff.1 hpu
      have hu' := List.mem_of_find?_eq_some hu
      rw [(hr p (by simp [hp]) u hu').2] at hgT
      rw [List.map_append, List.nodup_append] at ht
      exact ht.2.2 _ (List.mem_map_of_mem hp) _ (by simp) hgT

/-! ### the polynomials -/

theorem fit_ok {vec mat : List ℝ → Coefs} {name : Text} {gs : List GroupConstants} {G : Nat} (hn : ∀ g ∈ gs, ∀ k, (g.set k).n = G) (hs : ∀ g ∈ gs, g.size = G) :
    fitMaterial vec mat name gs G = .done ⟨name, fun k => (List.range G).map (fun e => vec (gs.map (fun g => (g.set k).v e))),
      (List.range G).map (fun i => (List.range G).map (fun j => mat (gs.map (fun g => g.scattMatrix0 i j))))⟩ := by
  have ht : ∀ k, collect (fun e => do
      let ys ← each (fun g : GroupConstants => entry (g.set k) e) gs
      Run.done (vec ys)) G = .done ((List.range G).map (fun e => vec (gs.map (fun g => (g.set k).v e)))) := by
    intro k
    refine collect_ok _ (fun e he => ?_)
    rw [each_ok (g := fun g => (g.set k).v e) gs (fun g hg => entry_ok (by rw [hn g hg]; exact he)), done_bind]
  have hm : collect (fun i => collect (fun j => do
      let ys ← each (fun g : GroupConstants => if i < g.size ∧ j < g.size then .done (g.scattMatrix0 i j) else .fails .index) gs
      Run.done (mat ys)) G) G = .done ((List.range G).map (fun i => (List.range G).map (fun j => mat (gs.map (fun g => g.scattMatrix0 i j))))) := by
    refine collect_ok _ (fun i hi => collect_ok _ (fun j hj => ?_))
    rw [each_ok (g := fun g => g.scattMatrix0 i j) gs (fun g hg => if_pos (by rw [hs g hg]; exact ⟨hi, hj⟩)), done_bind]
  unfold fitMaterial
  simp only
  rw [ht .total, done_bind, ht .ni, done_bind, ht .chi, done_bind, ht .fission, done_bind, ht .absorption, done_bind, ht .diffCoeff, done_bind, hm, done_bind]
  congr 2
  funext k
  cases k <;> rfl

/-- The constants of universe `w` in the files. -/
def setsOf (o : Options) (fs : List (ℝ × List Universe)) (w : Text) : List GroupConstants :=
  fs.filterMap (fun q => (q.2.find? (fun u => u.name = w)).map (got o q.1))

theorem find_ok {us : List Universe} {w : Text} (h : w ∈ us.map Universe.name) : ∃ u ∈ us, us.find? (fun u => u.name = w) = some u := by
  cases hf : us.find? (fun u => u.name = w) with
  | some u => exact ⟨u, List.mem_of_find?_eq_some hf, rfl⟩
  | none =>
    rw [List.find?_eq_none] at hf
    obtain ⟨u, hu, rfl⟩ := List.mem_map.1 h
    exact absurd (by simp) (hf u hu)

theorem sets_map {β : Type} {o : Options} {w : Text} {F : GroupConstants → β} {f : ℝ × List Universe → β} : ∀ fs : List (ℝ × List Universe),
    (∀ q ∈ fs, ∃ u ∈ q.2, q.2.find? (fun u => u.name = w) = some u ∧ F (got o q.1 u) = f q) → (setsOf o fs w).map F = fs.map f
  | [], _ => rfl
  | q :: fs, h => by
    obtain ⟨u, -, hf, hF⟩ := h q (by simp)
    have ih := sets_map fs (fun p hp => h p (by simp [hp]))
    unfold setsOf at ih ⊢
    rw [List.filterMap_cons, hf]
    simp only [Option.map_some, List.map_cons, hF, ih]

theorem zip_points (fs : List (ℝ × List Universe)) (w : Text) (f : Universe → ℝ) : (fs.map Prod.fst).zip ((points fs w f).map Prod.snd) = points fs w f := by
  induction fs with
  | nil => rfl
  | cons q fs ih =>
    unfold points at ih ⊢
    simp only [List.map_cons, List.zip_cons_cons, ih]

theorem along_single (y x : ℝ) : along [y] x = y := by simp [along]

/-- What the results have to be. -/
structure Right (o : Options) (G : Nat) (fs : List (ℝ × List Universe)) (r : Result) : Prop where
  xs : ∀ k, (r.xs k).length = G
  tables : ∀ k e, e < G → ∃ c, (r.xs k)[e]? = some c ∧ Fitted (points fs r.matNumber (fun u => wanted o (chosen o u) k e)) c.list
  rows : r.scattMatrix0.length = G
  scatt : ∀ e f, e < G → f < G → ∃ l c, r.scattMatrix0[e]? = some l ∧ l[f]? = some c ∧
    Fitted (points fs r.matNumber (fun u => wantedScatt o G (chosen o u) e f)) c.list

theorem cross_ok {py : Py} {o : Options} {G : Nat} {fs : List (ℝ × List Universe)} {names : List Text} (hpy : Interpolates py) (h : Matching o G fs names) :
    ∃ rs, crossSections py o fs = .done rs ∧ rs.map Result.matNumber = names ∧ ∀ r ∈ rs, Right o G fs r := by
  have hgot : ∀ q ∈ fs, ∀ u ∈ q.2, readUniverse o q.1 u = .done (got o q.1 u) ∧ Got o G q.1 u (got o q.1 u) := fun q hq u hu =>
    got_ok (h.groups q hq u hu).1 (h.groups q hq u hu).2 (fun a b => h.total a b q hq u hu)
  -- the first file
  obtain ⟨q0, hq0, hq0n⟩ : ∃ q0, fs[0]? = some q0 ∧ q0.2.map Universe.name = names := by
    have := h.first
    rw [← List.head?_eq_getElem?]
    cases hh : fs.head? with
    | none => simp [hh] at this
    | some q => exact ⟨q, rfl, by simpa [hh] using this⟩
  have hcreate : createMaterials q0.2 [] = .done (names.map (fun w => ⟨w, []⟩)) := by
    rw [create_ok q0.2 [] (by simpa [hq0n] using h.nodup), ← hq0n, List.map_map]
    rfl
  have hread : readAll o fs (names.map (fun w => ⟨w, []⟩)) = .done (names.map (fun w => ⟨w, setsOf o fs w⟩)) :=
    readAll_ok h.nodup fs [] (by simpa using h.temps) (by simpa using h.same) (fun q hq u hu => ⟨(hgot q (by simpa using hq) u hu).1, (hgot q (by simpa using hq) u hu).2.temp⟩)
  have hfind : ∀ w ∈ names, ∀ q ∈ fs, ∃ u ∈ q.2, q.2.find? (fun u => u.name = w) = some u := fun w hw q hq => find_ok ((h.same q hq).symm.subset hw)
  have htemps : ∀ w ∈ names, (setsOf o fs w).map GroupConstants.temp = fs.map Prod.fst := fun w hw =>
    sets_map fs (fun q hq => by
      obtain ⟨u, hu, hf⟩ := hfind w hw q hq
      exact ⟨u, hu, hf, (hgot q hq u hu).2.temp⟩)
  have hlen : ∀ w ∈ names, (setsOf o fs w).length = fs.length := fun w hw => by
    have := congrArg List.length (htemps w hw)
    simpa using this
  have hset : ∀ w ∈ names, ∀ k e, e < G → (setsOf o fs w).map (fun g => (g.set k).v e) = (points fs w (fun u => wanted o (chosen o u) k e)).map Prod.snd := fun w hw k e he => by
    unfold points
    rw [List.map_map]
    refine sets_map fs (fun q hq => ?_)
    obtain ⟨u, hu, hf⟩ := hfind w hw q hq
    refine ⟨u, hu, hf, ?_⟩
    simp only [Function.comp_apply, hf, Option.map_some, Option.getD_some]
    exact (hgot q hq u hu).2.set k e he
  have hscatt : ∀ w ∈ names, ∀ e f, e < G → f < G → (setsOf o fs w).map (fun g => g.scattMatrix0 e f) =
      (points fs w (fun u => wantedScatt o G (chosen o u) e f)).map Prod.snd := fun w hw e f he hf => by
    unfold points
    rw [List.map_map]
    refine sets_map fs (fun q hq => ?_)
    obtain ⟨u, hu, hf'⟩ := hfind w hw q hq
    refine ⟨u, hu, hf', ?_⟩
    simp only [Function.comp_apply, hf', Option.map_some, Option.getD_some]
    exact (hgot q hq u hu).2.scatt e f he hf
  have hall : ∀ w ∈ names, ∀ g ∈ setsOf o fs w, (∀ k, (g.set k).n = G) ∧ g.size = G ∧ g.energyGroups = G := fun w hw g hg => by
    obtain ⟨q, hq, hqu⟩ := List.mem_filterMap.1 hg
    obtain ⟨u, hu, rfl⟩ := Option.map_eq_some_iff.1 hqu
    have := (hgot q hq u (List.mem_of_find?_eq_some hu)).2
    exact ⟨this.n, this.size, this.groups⟩
  obtain ⟨w0, hw0, hw0m⟩ : ∃ w0, w0 ∈ names ∧ names[0]? = some w0 := by
    cases hnn : names with
    | nil => exact absurd hnn h.nonempty
    | cons a l => exact ⟨a, by simp, rfl⟩
  -- one way of interpolating
  have hgen : ∀ vec mat : List ℝ → Coefs, (∀ w f, Fitted (points fs w f) (vec ((points fs w f).map Prod.snd)).list) →
      (∀ w f, Fitted (points fs w f) (mat ((points fs w f).map Prod.snd)).list) → ∀ w ∈ names,
      Right o G fs ⟨w, fun k => (List.range G).map (fun e => vec ((setsOf o fs w).map (fun g => (g.set k).v e))),
        (List.range G).map (fun i => (List.range G).map (fun j => mat ((setsOf o fs w).map (fun g => g.scattMatrix0 i j))))⟩ := by
    intro vec mat hv hm w hw
    refine ⟨fun k => by simp, fun k e he => ⟨vec ((setsOf o fs w).map (fun g => (g.set k).v e)), by simp [he], ?_⟩, by simp, fun e f he hf =>
      ⟨(List.range G).map (fun j => mat ((setsOf o fs w).map (fun g => g.scattMatrix0 e j))), mat ((setsOf o fs w).map (fun g => g.scattMatrix0 e f)), by simp [he],
        by simp [hf], ?_⟩⟩
    · rw [hset w hw k e he]; exact hv _ _
    · rw [hscatt w hw e f he hf]; exact hm _ _
  have hplen : ∀ w f, ((points fs w f).map Prod.snd).length = fs.length := fun w f => by simp [points]
  have hlag : ∀ w f, fs ≠ [] → Fitted (points fs w f) (py.lagrange (fs.map Prod.fst) ((points fs w f).map Prod.snd)).reverse := fun w f hne => by
    have := hpy.lagrange (fs.map Prod.fst) ((points fs w f).map Prod.snd) h.temps (by rw [hplen]; simp) (by simpa using hne)
    rwa [zip_points] at this
  unfold crossSections
  rw [item_ok hq0, done_bind, hcreate, done_bind, hread, done_bind]
  unfold calculateALMOSTCrossSections
  rw [item_ok (a := (⟨w0, setsOf o fs w0⟩ : Material)) (by rw [List.getElem?_map, hw0m]; rfl), done_bind]
  simp only [htemps w0 hw0, hlen w0 hw0]
  rcases h.files with h1 | h2 | h3
  · rw [h1]
    simp only
    obtain ⟨q, rfl⟩ := List.length_eq_one_iff.1 h1
    rw [each_ok (g := fun m => ⟨m.matNumber, fun k => (List.range G).map (fun e => Coefs.scalar ((m.groupConstantsList.map (fun g => (g.set k).v e)).headD 0)),
      (List.range G).map (fun i => (List.range G).map (fun j => Coefs.scalar ((m.groupConstantsList.map (fun g => g.scattMatrix0 i j)).headD 0)))⟩)]
    · refine ⟨_, rfl, ?_, ?_⟩
      · rw [List.map_map, List.map_map]; exact List.map_id names
      · intro r hr
        rw [List.map_map] at hr
        obtain ⟨w, hw, rfl⟩ := List.mem_map.1 hr
        have : ∀ w f, Fitted (points [q] w f) (Coefs.scalar (((points [q] w f).map Prod.snd).headD 0)).list := fun w f => by
          refine ⟨by simp [Coefs.list], by simp [Coefs.list, points], fun p hp => ?_⟩
          simp only [points, List.map_cons, List.map_nil, List.mem_singleton] at hp
          subst hp
          simp [Coefs.list, points, along_single]
        exact hgen (fun ys => .scalar (ys.headD 0)) (fun ys => .scalar (ys.headD 0)) this this w hw
    · intro m hm
      obtain ⟨w, hw, rfl⟩ := List.mem_map.1 hm
      obtain ⟨g, hg⟩ := List.length_eq_one_iff.1 ((hlen w hw).trans h1)
      simp only [hg]
      rw [item_ok (a := g) rfl, done_bind]
      have := hall w hw g (by simp [hg])
      rw [this.2.2, fit_ok (by simpa using this.1) (by simpa using this.2.1)]
  · rw [h2]
    simp only
    rw [each_ok (g := fun m => ⟨m.matNumber, fun k => (List.range G).map (fun e => Coefs.array (py.lagrange (fs.map Prod.fst)
      (m.groupConstantsList.map (fun g => (g.set k).v e))).reverse),
      (List.range G).map (fun i => (List.range G).map (fun j => Coefs.array (py.lagrange (fs.map Prod.fst) (m.groupConstantsList.map (fun g => g.scattMatrix0 i j))).reverse))⟩)]
    · refine ⟨_, rfl, ?_, ?_⟩
      · rw [List.map_map, List.map_map]; exact List.map_id names
      · intro r hr
        rw [List.map_map] at hr
        obtain ⟨w, hw, rfl⟩ := List.mem_map.1 hr
        have : ∀ w f, Fitted (points fs w f) (Coefs.array (py.lagrange (fs.map Prod.fst) ((points fs w f).map Prod.snd)).reverse).list := fun w f =>
          hlag w f (by rintro rfl; simp at h2)
        exact hgen (fun ys => .array (py.lagrange (fs.map Prod.fst) ys).reverse) (fun ys => .array (py.lagrange (fs.map Prod.fst) ys).reverse) this this w hw
    · intro m hm
      obtain ⟨w, hw, rfl⟩ := List.mem_map.1 hm
      obtain ⟨g, g', hg⟩ := List.length_eq_two.1 ((hlen w hw).trans h2)
      have hgg := hall w hw
      simp only [hg]
      rw [hg] at hgg
      rw [item_ok (a := g) rfl, done_bind, item_ok (a := g') rfl, done_bind, (hgg g (by simp)).2.2, fit_ok (fun x hx => (hgg x hx).1) (fun x hx => (hgg x hx).2.1)]
  · rw [h3]
    simp only
    rw [each_ok (g := fun m => ⟨m.matNumber, fun k => (List.range G).map (fun e => Coefs.array (py.polyfit (fs.map Prod.fst)
      (m.groupConstantsList.map (fun g => (g.set k).v e)))),
      (List.range G).map (fun i => (List.range G).map (fun j => Coefs.array (py.lagrange (fs.map Prod.fst) (m.groupConstantsList.map (fun g => g.scattMatrix0 i j))).reverse))⟩)]
    · refine ⟨_, rfl, ?_, ?_⟩
      · rw [List.map_map, List.map_map]; exact List.map_id names
      · intro r hr
        rw [List.map_map] at hr
        obtain ⟨w, hw, rfl⟩ := List.mem_map.1 hr
        have hl : ∀ w f, Fitted (points fs w f) (Coefs.array (py.lagrange (fs.map Prod.fst) ((points fs w f).map Prod.snd)).reverse).list := fun w f =>
          hlag w f (by rintro rfl; simp at h3)
        have hp : ∀ w f, Fitted (points fs w f) (Coefs.array (py.polyfit (fs.map Prod.fst) ((points fs w f).map Prod.snd))).list := fun w f => by
          have := hpy.polyfit (fs.map Prod.fst) ((points fs w f).map Prod.snd) h.temps (by simpa using h3) (by rw [hplen]; exact h3)
          rwa [zip_points] at this
        exact hgen (fun ys => .array (py.polyfit (fs.map Prod.fst) ys)) (fun ys => .array (py.lagrange (fs.map Prod.fst) ys).reverse) hp hl w hw
    · intro m hm
      obtain ⟨w, hw, rfl⟩ := List.mem_map.1 hm
      obtain ⟨g, g', g'', hg⟩ := List.length_eq_three.1 ((hlen w hw).trans h3)
      have hgg := hall w hw
      simp only [hg]
      rw [hg] at hgg
      rw [item_ok (a := g) rfl, done_bind, item_ok (a := g') rfl, done_bind, item_ok (a := g'') rfl, done_bind, (hgg g (by simp)).2.2,
        fit_ok (fun x hx => (hgg x hx).1) (fun x hx => (hgg x hx).2.1)]

end

end Verif.Gen
