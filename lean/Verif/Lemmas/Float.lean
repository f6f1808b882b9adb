import Verif.Spec.Float
import Verif.Lemmas.Convert
import Mathlib.Tactic.Linarith
import Mathlib.Tactic.Positivity
import Mathlib.Tactic.FieldSimp
/-!
# Counting roundings
-/

namespace Verif.Fl
open Spec (relError roundings)

/-- `y` is `x` after `n` roundings. -/
def Off (u : ℝ) (n : Nat) (x y : ℝ) : Prop := ∃ θ : ℝ, y = x * θ ∧ (1 - u) ^ n ≤ θ ∧ θ ≤ ((1 - u) ^ n)⁻¹

/-- the factor `n` roundings can cost -/
noncomputable def grow (u : ℝ) (n : Nat) : ℝ := ((1 - u) ^ n)⁻¹

section
variable {u : ℝ} (h0 : 0 ≤ u) (h1 : u < 1)
include h0 h1

theorem base_pos (n : Nat) : 0 < (1 - u) ^ n := pow_pos (by linarith) n
theorem base_le (n : Nat) : (1 - u) ^ n ≤ 1 := pow_le_one₀ (by linarith) (by linarith)
theorem grow_ge (n : Nat) : 1 ≤ grow u n := (one_le_inv₀ (base_pos h0 h1 n)).2 (base_le h0 h1 n)
theorem grow_add (m n : Nat) : grow u (m + n) = grow u m * grow u n := by
  unfold grow; rw [pow_add, mul_inv]
theorem grow_mono {m n : Nat} (h : m ≤ n) : grow u m ≤ grow u n := by
  obtain ⟨k, rfl⟩ := Nat.exists_eq_add_of_le h
  rw [grow_add h0 h1]
  have := grow_ge h0 h1 m
  have := grow_ge h0 h1 k
  nlinarith
theorem relError_eq (n : Nat) : relError u n = grow u n - 1 := rfl
theorem relError_nonneg (n : Nat) : 0 ≤ relError u n := by
  rw [relError_eq h0 h1]; linarith [grow_ge h0 h1 n]
theorem relError_mono {m n : Nat} (h : m ≤ n) : relError u m ≤ relError u n := by
  rw [relError_eq h0 h1, relError_eq h0 h1]; linarith [grow_mono h0 h1 h]

theorem u_le : 1 + u ≤ grow u 1 := by
  unfold grow
  rw [pow_one, le_inv_comm₀ (by linarith) (by linarith), inv_eq_one_div, le_div_iff₀ (by linarith)]
  nlinarith

theorem Off.refl (n : Nat) (x : ℝ) : Off u n x x :=
  ⟨1, by ring, base_le h0 h1 n, grow_ge h0 h1 n⟩

theorem Off.of_rounded {x y : ℝ} (h : Rounded u x y) : Off u 1 x y := by
  unfold Rounded at h
  by_cases hx : x = 0
  · subst hx
    simp only [sub_zero, abs_zero, mul_zero] at h
    have : y = 0 := abs_nonpos_iff.1 h
    subst this
    exact Off.refl h0 h1 1 0
  · have hxp : 0 < |x| := abs_pos.2 hx
    refine ⟨y / x, by field_simp, ?_, ?_⟩
    all_goals
      have h2 : |y / x - 1| ≤ u := by
        rw [div_sub_one hx, abs_div, div_le_iff₀ hxp]; exact h
      have h3 := abs_le.1 h2
    · rw [pow_one]; linarith [h3.1]
    · have := u_le h0 h1
      unfold grow at this
      linarith [h3.2]

theorem Off.pos {n : Nat} {x y : ℝ} (h : Off u n x y) : ∃ θ : ℝ, y = x * θ ∧ 0 < θ := by
  obtain ⟨θ, e, h2, _⟩ := h
  exact ⟨θ, e, lt_of_lt_of_le (base_pos h0 h1 n) h2⟩

theorem Off.mono {m n : Nat} (hmn : m ≤ n) {x y : ℝ} (h : Off u m x y) : Off u n x y := by
  obtain ⟨θ, e, h2, h3⟩ := h
  refine ⟨θ, e, le_trans (pow_le_pow_of_le_one (by linarith) (by linarith) hmn) h2, le_trans h3 (grow_mono h0 h1 hmn)⟩

theorem Off.trans {m n : Nat} {x y z : ℝ} (h : Off u m x y) (h' : Off u n y z) : Off u (m + n) x z := by
  obtain ⟨θ, e, a, b⟩ := h
  obtain ⟨θ', e', a', b'⟩ := h'
  have p := base_pos h0 h1 m
  have p' := base_pos h0 h1 n
  refine ⟨θ * θ', by rw [e', e]; ring, ?_, ?_⟩
  · rw [pow_add]; exact mul_le_mul a a' p'.le (le_trans p.le a)
  · rw [pow_add, mul_inv]; exact mul_le_mul b b' (le_trans p'.le a') (inv_pos.2 p).le

theorem Off.mul {m n : Nat} {x y x' y' : ℝ} (h : Off u m x y) (h' : Off u n x' y') : Off u (m + n) (x * x') (y * y') := by
  obtain ⟨θ, e, a, b⟩ := h
  obtain ⟨θ', e', a', b'⟩ := h'
  have p := base_pos h0 h1 m
  have p' := base_pos h0 h1 n
  refine ⟨θ * θ', by rw [e', e]; ring, ?_, ?_⟩
  · rw [pow_add]; exact mul_le_mul a a' p'.le (le_trans p.le a)
  · rw [pow_add, mul_inv]; exact mul_le_mul b b' (le_trans p'.le a') (inv_pos.2 p).le

theorem Off.inv {n : Nat} {x y : ℝ} (h : Off u n x y) : Off u n x⁻¹ y⁻¹ := by
  obtain ⟨θ, e, a, b⟩ := h
  have p := base_pos h0 h1 n
  have hθ := lt_of_lt_of_le p a
  refine ⟨θ⁻¹, by rw [e, mul_inv], ?_, ?_⟩
  · rw [le_inv_comm₀ p hθ]; exact b
  · rw [inv_le_inv₀ hθ p]; exact a

theorem Off.pow {n : Nat} {x y : ℝ} (h : Off u n x y) (k : Nat) : Off u (k * n) (x ^ k) (y ^ k) := by
  induction k with
  | zero => simp only [pow_zero, Nat.zero_mul]; exact Off.refl h0 h1 0 1
  | succ k ih =>
    rw [pow_succ, pow_succ, Nat.succ_mul]
    exact Off.mul h0 h1 ih h

theorem Off.zpow {n : Nat} {x y : ℝ} (h : Off u n x y) (k : Int) : Off u (k.natAbs * n) (x ^ k) (y ^ k) := by
  cases k with
  | ofNat k => simpa using Off.pow h0 h1 h k
  | negSucc k =>
    rw [zpow_negSucc, zpow_negSucc]
    exact Off.inv h0 h1 (Off.pow h0 h1 h (k + 1))

theorem Off.sub {n : Nat} {x y : ℝ} (h : Off u n x y) : |y - x| ≤ relError u n * |x| := by
  obtain ⟨θ, e, a, b⟩ := h
  have p := base_pos h0 h1 n
  have : y - x = (θ - 1) * x := by rw [e]; ring
  rw [this, abs_mul]
  refine mul_le_mul_of_nonneg_right (abs_le.2 ⟨?_, ?_⟩) (abs_nonneg x)
  · -- 1 - g ≤ 1/g - 1
    have h3 : 2 ≤ (1 - u) ^ n + ((1 - u) ^ n)⁻¹ := by
      have : 0 ≤ ((1 - u) ^ n - 1) ^ 2 * ((1 - u) ^ n)⁻¹ := mul_nonneg (sq_nonneg _) (inv_pos.2 p).le
      have e2 : ((1 - u) ^ n - 1) ^ 2 * ((1 - u) ^ n)⁻¹ = (1 - u) ^ n + ((1 - u) ^ n)⁻¹ - 2 := by
        field_simp; ring
      linarith
    unfold relError
    linarith
  · unfold relError; linarith

theorem Off.abs {n : Nat} {x y : ℝ} (h : Off u n x y) : |y| ≤ grow u n * |x| := by
  obtain ⟨θ, e, a, b⟩ := h
  have p := base_pos h0 h1 n
  rw [e, abs_mul, abs_of_pos (lt_of_lt_of_le p a), mul_comm]
  exact mul_le_mul_of_nonneg_right b (abs_nonneg x)

/-! ## Definitions -/

theorem coef_off {d : Node} {c : ℝ} (h : Coef (Rounded u) d c) : ∀ {m : Mono}, d.toMono = .ok m → Off u (roundings d) m.coef c := by
  induction h with
  | number hq hr =>
    intro m hm
    simp only [Node.toMono, hq, bind, Except.bind] at hm
    cases hm
    exact Off.of_rounded h0 h1 hr
  | ident n =>
    intro m hm
    cases hm
    simp only [Mono.sym, Rat.cast_one, roundings]
    exact Off.refl h0 h1 0 1
  | @mul l r a b c _ _ hc ihl ihr =>
    intro m hm
    simp only [Node.toMono] at hm
    cases hl : l.toMono with
    | error e => rw [hl] at hm; cases hm
    | ok ml =>
      cases hr : r.toMono with
      | error e => rw [hl, hr] at hm; cases hm
      | ok mr =>
        rw [hl, hr] at hm; cases hm
        rw [Mono.coef_mul]; push_cast
        exact Off.trans h0 h1 (Off.mul h0 h1 (ihl hl) (ihr hr)) (Off.of_rounded h0 h1 hc)
  | @div l r a b i c _ _ hi hc ihl ihr =>
    intro m hm
    simp only [Node.toMono] at hm
    cases hl : l.toMono with
    | error e => rw [hl] at hm; cases hm
    | ok ml =>
      cases hr : r.toMono with
      | error e => rw [hl, hr] at hm; cases hm
      | ok mr =>
        rw [hl, hr] at hm
        have hm' : ml.div mr = .ok m := hm
        rw [(Mono.div_spec (toMono_wf hl) (toMono_wf hr) hm').2.1, div_eq_mul_inv]
        push_cast
        have e1 := Off.trans h0 h1 (Off.inv h0 h1 (ihr hr)) (Off.of_rounded h0 h1 hi)
        have e2 := Off.trans h0 h1 (Off.mul h0 h1 (ihl hl) e1) (Off.of_rounded h0 h1 hc)
        exact Off.mono h0 h1 (by show _ ≤ roundings l + roundings r + 2; omega) e2
  | @raise l r a c n _ hn hc ih =>
    intro m hm
    simp only [Node.toMono] at hm
    cases hl : l.toMono with
    | error e => rw [hl] at hm; cases hm
    | ok ml =>
      rw [hl, hn] at hm
      have hm' : ml.pow n = .ok m := hm
      rw [(Mono.pow_spec (toMono_wf hl) hm').2.1]
      push_cast
      have e2 := Off.trans h0 h1 (Off.zpow h0 h1 (ih hl) n) (Off.of_rounded h0 h1 hc)
      refine Off.mono h0 h1 (le_of_eq ?_) e2
      cases r with
      | number v raw =>
        cases v with
        | int i => cases hn; rfl
        | dec d => cases hn
        | str s =>
          simp only [Node.asExponent] at hn
          simp only [roundings]
          cases hp : parseInt? s with
          | none => rw [hp] at hn; cases hn
          | some i => rw [hp] at hn; cases hn; rfl
      | _ => cases hn

end

/-! ## Chains that only multiply and add -/

/-- the exact value of a chain -/
noncomputable def eval : List Step → ℝ → ℝ
  | [], x => x
  | .scale c :: l, x => eval l (c * x)
  | .add q :: l, x => eval l (x + q)
  | _ :: _, _ => 0

/-- with absolute values -/
noncomputable def absv : List Step → ℝ → ℝ
  | [], x => x
  | .scale c :: l, x => absv l (|c| * x)
  | .add q :: l, x => absv l (x + |q|)
  | _ :: _, _ => 0

/-- the product of the factors -/
noncomputable def slope : List Step → ℝ
  | [] => 1
  | .scale c :: l => slope l * c
  | .add _ :: l => slope l
  | _ :: _ => 0

/-- only factors and constants -/
def Aff : List Step → Prop
  | [] => True
  | .scale _ :: l => Aff l
  | .add _ :: l => Aff l
  | _ :: _ => False

theorem eval_sub {l : List Step} (h : Aff l) : ∀ x y, eval l x - eval l y = slope l * (x - y) := by
  induction l with
  | nil => intro x y; simp [eval, slope]
  | cons s l ih =>
    intro x y
    cases s with
    | scale c => simp only [eval, slope, ih h]; ring
    | add q => simp only [eval, slope, ih h]; ring
    | _ => exact h.elim

theorem absv_eq {l : List Step} (h : Aff l) : ∀ x, absv l x = |slope l| * x + absv l 0 := by
  induction l with
  | nil => intro x; simp [absv, slope]
  | cons s l ih =>
    intro x
    cases s with
    | scale c => simp only [absv, slope]; rw [ih h, mul_zero, abs_mul]; ring
    | add q => simp only [absv, slope]; rw [ih h, ih h (0 + |q|)]; ring
    | _ => exact h.elim

theorem absv_zero {l : List Step} (h : Aff l) : 0 ≤ absv l 0 := by
  induction l with
  | nil => simp [absv]
  | cons s l ih =>
    cases s with
    | scale c => simp only [absv, mul_zero]; exact ih h
    | add q =>
      simp only [absv]; rw [absv_eq (l := l) h]
      have := abs_nonneg q; have := abs_nonneg (slope l); have := ih h
      positivity
    | _ => exact h.elim

theorem slope_le {l : List Step} (h : Aff l) (x : ℝ) : |slope l| * x ≤ absv l x := by
  rw [absv_eq h x]; linarith [absv_zero h]

theorem absv_nonneg {l : List Step} (h : Aff l) {x : ℝ} (hx : 0 ≤ x) : 0 ≤ absv l x := by
  have := absv_zero h
  rw [absv_eq h]
  have := abs_nonneg (slope l)
  positivity

theorem absv_mono {l : List Step} (h : Aff l) {x y : ℝ} (hxy : x ≤ y) : absv l x ≤ absv l y := by
  rw [absv_eq h x, absv_eq h y]
  have := mul_le_mul_of_nonneg_left hxy (abs_nonneg (slope l))
  linarith

theorem absv_scale {l : List Step} (h : Aff l) {t : ℝ} (ht : 1 ≤ t) (x : ℝ) : absv l (t * x) ≤ t * absv l x := by
  rw [absv_eq h (t * x), absv_eq h x]
  have := absv_zero h
  nlinarith

theorem eval_le {l : List Step} (h : Aff l) : ∀ {x X : ℝ}, |x| ≤ X → |eval l x| ≤ absv l X := by
  induction l with
  | nil => intro x X hx; exact hx
  | cons s l ih =>
    intro x X hx
    cases s with
    | scale c =>
      refine ih h ?_
      rw [abs_mul]; exact mul_le_mul_of_nonneg_left hx (abs_nonneg c)
    | add q =>
      refine ih h (le_trans (abs_add_le _ _) ?_)
      linarith
    | _ => exact h.elim

theorem eval_append {a b : List Step} (h : Aff a) (x : ℝ) : eval (a ++ b) x = eval b (eval a x) := by
  induction a generalizing x with
  | nil => rfl
  | cons s a ih =>
    cases s with
    | scale c => exact ih h _
    | add q => exact ih h _
    | _ => exact h.elim

theorem absv_append {a b : List Step} (h : Aff a) (x : ℝ) : absv (a ++ b) x = absv b (absv a x) := by
  induction a generalizing x with
  | nil => rfl
  | cons s a ih =>
    cases s with
    | scale c => exact ih h _
    | add q => exact ih h _
    | _ => exact h.elim

theorem aff_append {a b : List Step} : Aff (a ++ b) ↔ Aff a ∧ Aff b := by
  induction a with
  | nil => simp [Aff]
  | cons s a ih =>
    cases s with
    | scale c => simpa [Aff] using ih
    | add q => simpa [Aff] using ih
    | _ => simp [Aff]

/-- `l'` is `l` after `n` roundings. -/
structure Near (u : ℝ) (n : Nat) (l l' : List Step) : Prop where
  left : Aff l
  right : Aff l'
  val : ∀ x X, |x| ≤ X → |eval l' x - eval l x| ≤ relError u n * absv l X
  mag : ∀ X, 0 ≤ X → absv l' X ≤ grow u n * absv l X

section
variable {u : ℝ} (h0 : 0 ≤ u) (h1 : u < 1)
include h0 h1

theorem Near.refl {l : List Step} (h : Aff l) : Near u 0 l l := by
  refine ⟨h, h, fun x X hx => ?_, fun X hX => ?_⟩
  · simp [relError]
  · simp [grow]

theorem Near.mono {m n : Nat} (hmn : m ≤ n) {l l' : List Step} (h : Near u m l l') : Near u n l l' := by
  refine ⟨h.left, h.right, fun x X hx => le_trans (h.val x X hx) ?_, fun X hX => le_trans (h.mag X hX) ?_⟩
  · exact mul_le_mul_of_nonneg_right (relError_mono h0 h1 hmn) (absv_nonneg h.left (le_trans (abs_nonneg x) hx))
  · exact mul_le_mul_of_nonneg_right (grow_mono h0 h1 hmn) (absv_nonneg h.left hX)

theorem Near.trans {m n : Nat} {l l' l'' : List Step} (h : Near u m l l') (h' : Near u n l' l'') : Near u (m + n) l l'' := by
  refine ⟨h.left, h'.right, fun x X hx => ?_, fun X hX => ?_⟩
  · have hX := le_trans (abs_nonneg x) hx
    have e1 := h.val x X hx
    have e2 := h'.val x X hx
    have e3 := mul_le_mul_of_nonneg_left (h.mag X hX) (relError_nonneg h0 h1 n)
    have e4 : eval l'' x - eval l x = (eval l'' x - eval l' x) + (eval l' x - eval l x) := by ring
    rw [e4]
    refine le_trans (abs_add_le _ _) ?_
    rw [relError_eq h0 h1, grow_add h0 h1]
    rw [relError_eq h0 h1] at e1 e2 e3
    nlinarith
  · have e3 := mul_le_mul_of_nonneg_left (h.mag X hX) (le_trans zero_le_one (grow_ge h0 h1 n))
    have := h'.mag X hX
    rw [grow_add h0 h1]
    nlinarith

theorem Near.append {m n : Nat} {a a' b b' : List Step} (h : Near u m a a') (h' : Near u n b b') :
    Near u (m + n) (a ++ b) (a' ++ b') := by
  have hl := aff_append.2 ⟨h.left, h'.left⟩
  have hm := aff_append.2 ⟨h.right, h'.left⟩
  have hr := aff_append.2 ⟨h.right, h'.right⟩
  refine Near.trans h0 h1 (l' := a' ++ b) ⟨hl, hm, fun x X hx => ?_, fun X hX => ?_⟩ ⟨hm, hr, fun x X hx => ?_, fun X hX => ?_⟩
  · rw [eval_append h.right, eval_append h.left, eval_sub h'.left, abs_mul, absv_append h.left]
    have e1 := mul_le_mul_of_nonneg_left (h.val x X hx) (abs_nonneg (slope b))
    have e2 := slope_le h'.left (absv a X)
    have e3 := mul_le_mul_of_nonneg_left e2 (relError_nonneg h0 h1 m)
    nlinarith
  · rw [absv_append h.right, absv_append h.left]
    exact le_trans (absv_mono h'.left (h.mag X hX)) (absv_scale h'.left (grow_ge h0 h1 m) _)
  · rw [eval_append h.right, eval_append h.right, absv_append h.right]
    exact h'.val _ _ (eval_le h.right hx)
  · rw [absv_append h.right, absv_append h.right]
    exact h'.mag _ (absv_nonneg h.right hX)

theorem near_scale {n : Nat} {c c' : ℝ} (h : Off u n c c') : Near u n [.scale c] [.scale c'] := by
  refine ⟨trivial, trivial, fun x X hx => ?_, fun X hX => ?_⟩
  · simp only [eval, absv]
    rw [← sub_mul, abs_mul, ← mul_assoc]
    have e := Off.sub h0 h1 h
    have := mul_nonneg (relError_nonneg h0 h1 n) (abs_nonneg c)
    exact mul_le_mul e hx (abs_nonneg x) this
  · simp only [absv]
    rw [← mul_assoc]
    exact mul_le_mul_of_nonneg_right (Off.abs h0 h1 h) hX

theorem near_add {n : Nat} {q q' : ℝ} (h : Off u n q q') : Near u n [.add q] [.add q'] := by
  refine ⟨trivial, trivial, fun x X hx => ?_, fun X hX => ?_⟩
  · simp only [eval, absv]
    have e := Off.sub h0 h1 h
    have hX := le_trans (abs_nonneg x) hx
    have e2 : x + q' - (x + q) = q' - q := by ring
    rw [e2]
    have := mul_nonneg (relError_nonneg h0 h1 n) hX
    nlinarith
  · simp only [absv]
    have e := Off.abs h0 h1 h
    have := mul_le_mul_of_nonneg_right (grow_ge h0 h1 n) hX
    nlinarith

theorem Near.cons {n : Nat} {s : Step} (hs : Aff [s]) {l l' : List Step} (h : Near u n l l') : Near u n (s :: l) (s :: l') := by
  have := Near.append h0 h1 (Near.refl h0 h1 hs) h
  rw [Nat.zero_add] at this
  exact this

theorem near_of_eq {l l' : List Step} (h : Aff l) (h' : Aff l') (he : ∀ x, eval l' x = eval l x)
    (ha : ∀ X, 0 ≤ X → absv l' X ≤ absv l X) : Near u 0 l l' := by
  refine ⟨h, h', fun x X hx => ?_, fun X hX => ?_⟩
  · rw [he]; simp [relError]
  · have := ha X hX; simpa [grow] using this

theorem near_rearrange {l l' : List Step} (h : Rearrange u l l') : Aff l → Near u 1 l l' := by
  induction h with
  | @merge a b c r hc =>
    intro hl
    have e1 : Near u 0 (.scale a :: .scale b :: r) (.scale (a * b) :: r) := by
      refine near_of_eq h0 h1 hl hl (fun x => ?_) (fun X _ => ?_)
      · simp only [eval]; congr 1; ring
      · simp only [absv]; rw [abs_mul]; exact le_of_eq (by congr 1; ring)
    exact Near.trans h0 h1 e1 (Near.append h0 h1 (near_scale h0 h1 (Off.of_rounded h0 h1 hc)) (Near.refl h0 h1 (l := r) hl))
  | @distribute q c p r hp =>
    intro hl
    have e1 : Near u 0 (.add q :: .scale c :: r) (.scale c :: .add (c * q) :: r) := by
      refine near_of_eq h0 h1 hl hl (fun x => ?_) (fun X _ => ?_)
      · simp only [eval]; congr 1; ring
      · simp only [absv]; rw [abs_mul]; exact le_of_eq (by congr 1; ring)
    have e2 : Near u 1 (.add (c * q) :: r) (.add p :: r) :=
      Near.append h0 h1 (near_add h0 h1 (Off.of_rounded h0 h1 hp)) (Near.refl h0 h1 (l := r) hl)
    have e3 := Near.trans h0 h1 e1 (Near.cons h0 h1 (s := .scale c) trivial e2)
    rw [Nat.zero_add] at e3
    exact e3
  | @collect p q s r hs =>
    intro hl
    have hr : Aff r := hl
    have e1 : Near u 0 (.add p :: .add q :: r) (.add (p + q) :: r) := by
      refine near_of_eq h0 h1 hl hl (fun x => ?_) (fun X _ => ?_)
      · simp only [eval]; congr 1; ring
      · simp only [absv]; exact absv_mono hr (by linarith [abs_add_le p q])
    exact Near.trans h0 h1 e1 (Near.append h0 h1 (near_add h0 h1 (Off.of_rounded h0 h1 hs)) (Near.refl h0 h1 (l := r) hr))
  | @under l l' s _ ih =>
    intro hl
    have hh : Aff ([s] ++ l) := hl
    obtain ⟨hs, hl'⟩ := aff_append.1 hh
    exact Near.cons h0 h1 hs (ih hl')

theorem near_rearranged {n : Nat} {l l' : List Step} (h : Rearranged u n l l') : Aff l → Near u n l l' := by
  induction h with
  | refl l => exact fun hl => Near.refl h0 h1 hl
  | @step n l l' l'' h _ ih =>
    intro hl
    have := near_rearrange h0 h1 h hl
    rw [Nat.add_comm]
    exact Near.trans h0 h1 this (ih this.right)

theorem near_printed {l l' : List Step} (h : Printed u l l') : Aff l → Near u l.length l l' ∧ l'.length = l.length := by
  induction h with
  | nil => exact fun hl => ⟨Near.refl h0 h1 hl, rfl⟩
  | @scale l l' c c' hc _ ih =>
    intro hl
    obtain ⟨e1, e2⟩ := ih hl
    refine ⟨?_, by simp [e2]⟩
    rw [List.length_cons, Nat.add_comm]
    exact Near.append h0 h1 (near_scale h0 h1 (Off.of_rounded h0 h1 hc)) e1
  | @add l l' c c' hc _ ih =>
    intro hl
    obtain ⟨e1, e2⟩ := ih hl
    refine ⟨?_, by simp [e2]⟩
    rw [List.length_cons, Nat.add_comm]
    exact Near.append h0 h1 (near_add h0 h1 (Off.of_rounded h0 h1 hc)) e1
  | _ => exact fun hl => hl.elim

theorem near_run {l : List Step} {x z : ℝ} (h : Run u l x z) : Aff l → ∀ X, |x| ≤ X →
    |z - eval l x| ≤ relError u l.length * absv l X := by
  have hstep : ∀ (l : List Step) (w y z W : ℝ), Aff l → Rounded u w y → |w| ≤ W →
      (∀ X, |y| ≤ X → |z - eval l y| ≤ relError u l.length * absv l X) →
      |z - eval l w| ≤ relError u (l.length + 1) * absv l W := by
    intro l w y z W hl hr hw ih
    have e0 : |y| ≤ grow u 1 * W := by
      have := Off.abs h0 h1 (Off.of_rounded h0 h1 hr)
      have := mul_le_mul_of_nonneg_left hw (le_trans zero_le_one (grow_ge h0 h1 1))
      linarith
    have e1 := ih _ e0
    have e2 := mul_le_mul_of_nonneg_left (absv_scale hl (grow_ge h0 h1 1) W) (relError_nonneg h0 h1 l.length)
    have e3 : z - eval l w = (z - eval l y) + slope l * (y - w) := by rw [← eval_sub hl]; ring
    have e4 : |slope l * (y - w)| ≤ relError u 1 * absv l W := by
      rw [abs_mul]
      have a1 := Off.sub h0 h1 (Off.of_rounded h0 h1 hr)
      have a2 := mul_le_mul_of_nonneg_left hw (relError_nonneg h0 h1 1)
      have a3 := mul_le_mul_of_nonneg_left (le_trans a1 a2) (abs_nonneg (slope l))
      have a4 := mul_le_mul_of_nonneg_left (slope_le hl W) (relError_nonneg h0 h1 1)
      nlinarith
    rw [e3]
    refine le_trans (abs_add_le _ _) ?_
    rw [relError_eq h0 h1, grow_add h0 h1]
    rw [relError_eq h0 h1] at e1 e2 e4
    nlinarith
  induction h with
  | nil x => intro _ X hx; simp [eval, relError]
  | @scale l c x y z hy _ ih =>
    intro hl X hx
    exact hstep l (c * x) y z (|c| * X) hl hy (by rw [abs_mul]; exact mul_le_mul_of_nonneg_left hx (abs_nonneg c)) (ih hl)
  | @add l q x y z hy _ ih =>
    intro hl X hx
    exact hstep l (x + q) y z (X + |q|) hl hy (le_trans (abs_add_le _ _) (by linarith)) (ih hl)
  | _ => intro hl; exact hl.elim

end

/-! ## How often the expression can be rearranged -/

/-- factors in a chain -/
def scales : List Step → Nat
  | [] => 0
  | .scale _ :: l => scales l + 1
  | _ :: l => scales l

/-- pairs of a constant and a later factor -/
def crossings : List Step → Nat
  | [] => 0
  | .add _ :: l => crossings l + scales l
  | _ :: l => crossings l

theorem scales_le (l : List Step) : scales l ≤ l.length := by
  induction l with
  | nil => simp [scales]
  | cons s l ih => cases s <;> simp only [scales, List.length_cons] <;> omega

theorem rearrange_measure {u : ℝ} {l l' : List Step} (h : Rearrange u l l') :
    l'.length + crossings l' + 1 ≤ l.length + crossings l ∧ scales l' ≤ scales l := by
  induction h with
  | merge r _ => simp only [List.length_cons, crossings, scales]; omega
  | distribute r _ => simp only [List.length_cons, crossings, scales]; omega
  | collect r _ => simp only [List.length_cons, crossings, scales]; omega
  | under s _ ih => cases s <;> simp only [List.length_cons, crossings, scales] <;> omega

theorem rearranged_measure {u : ℝ} {n : Nat} {l l' : List Step} (h : Rearranged u n l l') :
    n + l'.length ≤ l.length + crossings l := by
  induction h with
  | refl l => omega
  | step h _ ih => have := (rearrange_measure h).1; omega

theorem rearranged_length {u : ℝ} {n : Nat} {l l' : List Step} (h : Rearranged u n l l') : l'.length ≤ l.length := by
  induction h with
  | refl l => exact le_rfl
  | step h h' ih =>
    refine le_trans ih ?_
    clear ih h'
    induction h with
    | merge r _ => simp
    | distribute r _ => simp
    | collect r _ => simp
    | under s _ ih => simpa using ih

theorem crossings_le (l : List Step) : l.length + crossings l ≤ l.length * l.length := by
  induction l with
  | nil => simp [crossings]
  | cons s l ih =>
    have := scales_le l
    cases s <;> simp only [crossings, List.length_cons] <;> nlinarith

end Verif.Fl
