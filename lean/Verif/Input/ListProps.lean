import Verif.Input.Expand
import Verif.Input.TextProps

/-!
# Properties of the lists of values of an input file
-/

namespace Verif.Input

open Verif Outcome

noncomputable section

variable {lib : Lib} {ls : List Text}

/-! ### C33 -/

theorem stods_ok {ws : List Text} {xs : List ℝ} (h : List.Forall₂ (fun w x => lib.stod w = ok x) ws xs) : stods lib ws = ok xs := by
  induction h with
  | nil => rfl
  | cons h _ ih =>
    unfold stods
    rw [h, ok_bind, ih, ok_bind]

theorem allFloat_ok {ws : List Text} (h : ∀ w ∈ ws, isFloat w = ok true) : allFloat ws = ok true := by
  induction ws with
  | nil => rfl
  | cons w ws ih =>
    unfold allFloat
    rw [h w (by simp), ok_bind, if_pos rfl]
    exact ih (fun v hv => h v (by simp [hv]))

theorem valueCount_ok {ws : List Text} {l : List (ℝ × Nat)} (h : Repeated lib ws l) (hs : (l.map Prod.snd).sum ≤ 2147483647) :
    valueCount lib ws = ok (l.map Prod.fst, l.map Prod.snd) := by
  induction h with
  | nil => rfl
  | @cons w v n x ws l hv hw h ih =>
    simp only [List.map_cons, List.sum_cons] at hs ⊢
    unfold valueCount
    rw [hv, ok_bind, stoi_numeral hw (by omega), ok_bind, ih (by omega), ok_bind, toUns_nat (by omega)]

theorem countEnd_ok {ws : List Text} {l : List (Nat × ℝ)} (h : Counted lib ws l) (hs : (l.map Prod.fst).sum ≤ 2147483647) :
    countEnd lib ws = ok (l.map Prod.fst, l.map Prod.snd) := by
  induction h with
  | nil => rfl
  | @cons w v n x ws l hw hv h ih =>
    simp only [List.map_cons, List.sum_cons] at hs ⊢
    unfold countEnd
    rw [stoi_numeral hw (by omega), ok_bind, hv, ok_bind, ih (by omega), ok_bind, toUns_nat (by omega)]

/-- **C33.** `value count value count …`, beginning with a number with a decimal point, expands to each value repeated its count of times, in order. -/
theorem C33_repeated {ws : List Text} {l : List (ℝ × Nat)} (h : Repeated lib ws l) (h0 : l ≠ []) (hf : ∀ w ∈ ws.head?, Decimal w ∧ w.getLast? ≠ some '.')
    (hs : (l.map Prod.snd).sum ≤ 2147483647) : ∃ x, values lib ws = ok x ∧ Copies l x := by
  cases h with
  | nil => exact absurd rfl h0
  | @cons w v n x ws l hv hw h =>
    have hfl : isFloat v = ok true := C38_decimal (hf v rfl).1 (hf v rfl).2
    have ha : allFloat (v :: w :: ws) = ok false := by
      rw [allFloat, hfl, ok_bind, if_pos rfl, allFloat, numeral_not_float hw, ok_bind, if_neg (by simp)]
    have hR : Repeated lib (v :: w :: ws) ((x, n) :: l) := Repeated.cons hv hw h
    obtain ⟨y, hy, hc⟩ := repeatLoop_ok (l := (x, n) :: l) (x := Vec.const (((x, n) :: l).map Prod.snd).sum 0) rfl
    refine ⟨y, ?_, hc⟩
    unfold values
    rw [ha, ok_bind, if_neg (by simp)]
    show (isFloat v >>= fun f => expand lib f (v :: w :: ws)) = _
    rw [hfl, ok_bind]
    show (valueCount lib (v :: w :: ws) >>= _) = _
    rw [valueCount_ok hR hs, ok_bind]
    rw [total_small hs, resize, if_neg (by omega), ok_bind, Int.toNat_natCast, hy]

/-- **C33.** `count end count end …` expands to evenly spaced values, from zero to the sum of the ends, the steps of each part being equal. -/
theorem C33_spread {ws : List Text} {l : List (Nat × ℝ)} (h : Counted lib ws l) (h0 : l ≠ []) (hp : ∀ r ∈ l, 1 ≤ r.1)
    (hs : (l.map Prod.fst).sum < 2147483647) : ∃ x, values lib ws = ok x ∧ Spread l x := by
  cases h with
  | nil => exact absurd rfl h0
  | @cons w v n x ws l hw hv h =>
    have hfl := numeral_not_float hw
    have ha : allFloat (w :: v :: ws) = ok false := by
      rw [allFloat, hfl, ok_bind, if_neg (by simp)]
    have hR : Counted lib (w :: v :: ws) ((n, x) :: l) := Counted.cons hw hv h
    obtain ⟨y, hy, hc⟩ := ramp_list (rs := (n, x) :: l) (by simp) hp (x := Vec.const ((((n, x) :: l).map Prod.fst).sum + 1) 0) rfl
    refine ⟨y, ?_, hc⟩
    unfold values
    rw [ha, ok_bind, if_neg (by simp)]
    show (isFloat w >>= fun f => expand lib f (w :: v :: ws)) = _
    rw [hfl, ok_bind]
    show (countEnd lib (w :: v :: ws) >>= _) = _
    rw [countEnd_ok hR hs.le, ok_bind]
    have ht : total (0 :: ((n, x) :: l).map Prod.fst) = ((((n, x) :: l).map Prod.fst).sum : Int) := by
      rw [total_small (by rw [List.sum_cons]; omega), List.sum_cons, Nat.zero_add]
    rw [ht, if_neg (by omega), resize, if_neg (by omega), ok_bind]
    rw [show (((((n, x) :: l).map Prod.fst).sum : Int) + 1).toNat = (((n, x) :: l).map Prod.fst).sum + 1 by omega, hy]

/-- **C33, what is left of it.** A list of numbers with decimal points is taken as it is. Missing: numbers without decimal points. -/
theorem C33_partial {ws : List Text} {xs : List ℝ} (h : List.Forall₂ (fun w x => lib.stod w = ok x) ws xs)
    (hf : ∀ w ∈ ws, Decimal w ∧ w.getLast? ≠ some '.') : ∃ x, values lib ws = ok x ∧ x.toList = xs := by
  refine ⟨Vec.ofList xs, ?_, ?_⟩
  · unfold values
    rw [allFloat_ok (fun w hw => C38_decimal (hf w hw).1 (hf w hw).2), ok_bind, if_pos rfl, stods_ok h, ok_bind]
  · unfold Vec.toList Vec.ofList
    apply List.ext_getElem
    · simp
    · intro i h1 h2
      simp [List.getD, h2]

/-- **C33 does not hold for numbers without decimal points:** a list of the two values 300 is expanded to 301 values, and a list of three values is undefined
behaviour. -/
theorem C33_false (h : lib.stod "300".toList = ok 300) (h1 : lib.stod "1".toList = ok 1) :
    (∃ x, values lib ["300".toList, "300".toList] = ok x ∧ x.n = 301) ∧ values lib ["0".toList, "1".toList, "2".toList] = ub := by
  constructor
  · obtain ⟨x, hx, hn, -⟩ := C33_spread (lib := lib) (ws := ["300".toList, "300".toList]) (l := [(300, 300)])
      (Counted.cons (Numeral.snoc (w := "30".toList) (n := 30) (i := 0) (Numeral.snoc (w := "3".toList) (n := 3) (i := 0) (Numeral.digit (i := 3) (by decide)) (by decide)) (by decide)) h Counted.nil)
      (by simp) (by simp) (by decide)
    exact ⟨x, hx, hn⟩
  · have e : countEnd lib ["0".toList, "1".toList, "2".toList] = ok ([0, 2], [1]) := by
      show (stoi "0".toList >>= _) = _
      rw [show stoi "0".toList = ok 0 by decide, ok_bind, h1, ok_bind]
      rfl
    show (countEnd lib ["0".toList, "1".toList, "2".toList] >>= _) = ub
    rw [e, ok_bind]
    have : (total (0 :: ([0, 2], [(1 : ℝ)]).1)) = 2 := by decide
    rw [this, if_neg (by decide), resize, if_neg (by decide), ok_bind]
    unfold ramp
    rw [show (Vec.ofList (0 :: ([0, 2], [(1 : ℝ)]).1)).n - 1 = 1 + 1 from rfl, loop_succ, loop_succ, loop_zero]
    rfl

theorem decimal_simple {a b : Char} (ha : Digit a) (hb : Digit b) : Decimal [a, '.', b] :=
  ⟨[], [a], [b], [], rfl, Or.inl rfl, by simpa using ha, by simpa using hb, by simp, Or.inl rfl⟩

example : ∃ x, values exLib ["5.0".toList, "2".toList, "7".toList, "3".toList] = ok x ∧ Copies [(1 / 2, 2), (1 / 2, 3)] x :=
  C33_repeated (Repeated.cons rfl (Numeral.digit (i := 2) (by decide)) (Repeated.cons rfl (Numeral.digit (i := 3) (by decide)) Repeated.nil)) (by simp)
    (fun w hw => by
      cases hw
      exact ⟨decimal_simple (by unfold Digit; decide) (by unfold Digit; decide), by decide⟩) (by decide)

example : ∃ x, values exLib ["2".toList, "0.5".toList, "4".toList, "1".toList] = ok x ∧ Spread [(2, 1 / 2), (4, 1 / 2)] x :=
  C33_spread (Counted.cons (Numeral.digit (i := 2) (by decide)) rfl (Counted.cons (Numeral.digit (i := 4) (by decide)) rfl Counted.nil)) (by simp) (by simp) (by decide)

example : ∃ x, values exLib ["0.5".toList, "0.5".toList] = ok x ∧ x.toList = [1 / 2, 1 / 2] :=
  C33_partial (List.Forall₂.cons rfl (List.Forall₂.cons rfl List.Forall₂.nil)) (fun w hw => by
    simp only [List.mem_cons, List.not_mem_nil, or_false, or_self] at hw
    subst hw
    exact ⟨decimal_simple (by unfold Digit; decide) (by unfold Digit; decide), by decide⟩)

end

end Verif.Input
