import Verif.Lemmas.IntArrays
import Verif.Props.Arrays
/-!
# C84: converting numpy arrays of integers

For units whose definitions are free of value transformations.
-/

namespace Verif
open Spec

theorem coef_int {q : Rat} (h : ¬ (q.den != 1) = true) : q = (q.num : Rat) := by
  have : q.den = 1 := by simpa using h
  exact (Rat.den_eq_one_iff q |>.1 this).symm

/-- **C84.** Where floats come out, each is the element converted on its own. -/
theorem C84_floats {a b : UObj} (ha : NoTransformation a) (hb : NoTransformation b) {τ : Np.IntType} {xs : List Int} {ys : List (Option ℝ)}
    (h : Np.convertInts a b τ xs = .ok (.floats ys)) : ys = xs.map fun (x : Int) => convertedElement a b (some (x : ℝ)) := by
  rcases Np.convertInts_ops ha hb with ⟨e, -, h2⟩ | ⟨m, f1, f2, hm, -, -, ⟨hc, hr⟩ | ⟨hc, hr⟩⟩
  · rw [h2] at h; cases h
  · rw [hr] at h
    rw [Np.runInts] at h
    split at h
    · cases h
    · split at h
      · cases h
        refine List.map_congr_left fun x _ => ?_
        simp only [Np.step, convertedElement, hc, COp.run, if_pos hm]
      · split at h
        · cases h
        · split at h <;> cases h
  · rw [hr] at h
    cases h
    refine List.map_congr_left fun x _ => ?_
    simp only [convertedElement, hc]
    show Np.step _ (Np.step _ (some _)) = Np.elemRun _ (some _)
    rw [Np.elemRun_cons, Np.elemRun_cons, Np.elemRun_nil]

/-- **C84.** The array itself is returned only if conversion changes no number. -/
theorem C84_same {a b : UObj} (ha : NoTransformation a) (hb : NoTransformation b) {τ : Np.IntType} {xs : List Int}
    (h : Np.convertInts a b τ xs = .ok .same) (x : ℝ) : convert a b x = .ok x := by
  rcases Np.convertInts_ops ha hb with ⟨e, -, h2⟩ | ⟨m, f1, f2, hm, -, -, ⟨hc, hr⟩ | ⟨hc, hr⟩⟩
  · rw [h2] at h; cases h
  · rw [hr] at h
    rw [Np.runInts] at h
    split at h
    · cases h
    · split at h
      · cases h
      · split at h
        · next h1 => rw [hc, h1]; simp
        · split at h <;> cases h
  · rw [hr] at h; cases h

/-- **C84.** The number 0 is returned only if conversion makes every number 0. -/
theorem C84_zero {a b : UObj} (ha : NoTransformation a) (hb : NoTransformation b) {τ : Np.IntType} {xs : List Int}
    (h : Np.convertInts a b τ xs = .ok .zero) (x : ℝ) : convert a b x = .ok 0 := by
  rcases Np.convertInts_ops ha hb with ⟨e, -, h2⟩ | ⟨m, f1, f2, hm, -, -, ⟨hc, hr⟩ | ⟨hc, hr⟩⟩
  · rw [h2] at h; cases h
  · rw [hr] at h
    rw [Np.runInts] at h
    split at h
    · next h0 => rw [hc, h0]; simp
    · repeat' split at h
      all_goals cases h
  · rw [hr] at h; cases h

/-- **C84.** Where integers come out, conversion multiplies by an integer, and each of the results is what the array's type keeps of
the element converted on its own: the number of the type that differs from it by a multiple of `2^bits`. -/
theorem C84_integers {a b : UObj} (ha : NoTransformation a) (hb : NoTransformation b) {τ : Np.IntType} (hbits : 0 < τ.bits)
    {xs ys : List Int} (h : Np.convertInts a b τ xs = .ok (.ints ys)) :
    ∃ c : Int, (∀ x : ℝ, convert a b x = .ok (c * x)) ∧ List.Forall₂ (fun x y => Kept τ (c * x) y) xs ys := by
  rcases Np.convertInts_ops ha hb with ⟨e, -, h2⟩ | ⟨m, f1, f2, hm, -, -, ⟨hc, hr⟩ | ⟨hc, hr⟩⟩
  · rw [h2] at h; cases h
  · rw [hr] at h
    rw [Np.runInts] at h
    split at h
    · cases h
    · split at h
      · cases h
      · next hd =>
        split at h
        · cases h
        · split at h
          · cases h
            have hq : m.coef = (m.coef.num : Rat) := coef_int fun hn => hd (by rw [hn, Bool.or_true])
            refine ⟨m.coef.num, fun x => ?_, ?_⟩
            · rw [hc]; congr 2; exact_mod_cast congrArg (fun q : Rat => (q : ℝ)) hq
            · rw [List.forall₂_map_right_iff]
              exact List.forall₂_same.2 fun x _ => Np.kept_wrap hbits _
          · cases h
  · rw [hr] at h; cases h

/-- **C84.** So a result is the converted number exactly if that number is one of the array's type. -/
theorem C84_right_iff {τ : Np.IntType} (hbits : 0 < τ.bits) {x y : Int} (h : Kept τ x y) : y = x ↔ InType τ x :=
  ⟨fun e => e ▸ h.1, Np.kept_self hbits h⟩

/-- **C84.** `OverflowError` - whatever is in the array - means that conversion multiplies by an integer outside of the array's type. -/
theorem C84_refused {a b : UObj} (ha : NoTransformation a) (hb : NoTransformation b) {τ : Np.IntType} (hbits : 0 < τ.bits)
    {xs : List Int} (h : Np.convertInts a b τ xs = .ok .refused) :
    ∃ c : Int, (∀ x : ℝ, convert a b x = .ok (c * x)) ∧ ¬ InType τ c ∧ ∀ zs, Np.convertInts a b τ zs = .ok .refused := by
  rcases Np.convertInts_ops ha hb with ⟨e, -, h2⟩ | ⟨m, f1, f2, hm, -, -, ⟨hc, hr⟩ | ⟨hc, hr⟩⟩
  · rw [h2] at h; cases h
  · rw [hr] at h
    rw [Np.runInts] at h
    split at h
    · cases h
    · next h0 =>
      split at h
      · cases h
      · next hd =>
        split at h
        · cases h
        · next h1 =>
          split at h
          · cases h
          · next hh =>
            have hq : m.coef = (m.coef.num : Rat) := coef_int fun hn => hd (by rw [hn, Bool.or_true])
            refine ⟨m.coef.num, fun x => ?_, fun hi => hh ((Np.has_iff hbits _).2 hi), fun zs => ?_⟩
            · rw [hc]; congr 2; exact_mod_cast congrArg (fun q : Rat => (q : ℝ)) hq
            · rw [hr, Np.runInts, if_neg h0, if_neg hd, if_neg h1, if_neg hh]
  · rw [hr] at h; cases h

/-- **C84.** Any other exception is raised for every single number as well. -/
theorem C84_errors {a b : UObj} (ha : NoTransformation a) (hb : NoTransformation b) {τ : Np.IntType} {xs : List Int} {e : PyErr}
    (h : Np.convertInts a b τ xs = .error e) (x : ℝ) : convert a b x = .error e := by
  rcases Np.convertInts_ops ha hb with ⟨e', h1, h2⟩ | ⟨m, f1, f2, hm, -, -, ⟨hc, hr⟩ | ⟨hc, hr⟩⟩
  · rw [h2] at h; cases h; exact h1 x
  · rw [hr] at h
    rw [Np.runInts] at h
    repeat' split at h
    all_goals cases h
  · rw [hr] at h; cases h

/-- **C84.** When integers come out: if every number in both definitions, written out, is written without point and exponent, and
conversion multiplies by an integer other than 0 and 1, then an array of a type that has this integer is converted with
integers, and an array of any other type not at all. -/
theorem C84_when {a b : UObj} (ha : NoTransformation a) (hb : NoTransformation b) (wa : WholeUnit a) (wb : WholeUnit b) {c : Int}
    (hc : ∀ x : ℝ, convert a b x = .ok (c * x)) (h0 : c ≠ 0) (h1 : c ≠ 1) {τ : Np.IntType} (hbits : 0 < τ.bits) (xs : List Int) :
    (InType τ c → ∃ ys, Np.convertInts a b τ xs = .ok (.ints ys)) ∧ (¬ InType τ c → Np.convertInts a b τ xs = .ok .refused) := by
  rcases Np.convertInts_ops ha hb with ⟨e', h1, h2⟩ | ⟨m, f1, f2, hm, g1, g2, ⟨hc', hr⟩ | ⟨hc', hr⟩⟩
  · have := (h1 1).symm.trans (hc 1); cases this
  · have hq : (m.coef : ℝ) = c := by
      have := Except.ok.inj ((hc' 1).symm.trans (hc 1)); simpa using this
    have hq : m.coef = (c : Rat) := by exact_mod_cast hq
    have hf : (f1 || f2) = false := by rw [Np.whole_unit g1 wa, Np.whole_unit g2 wb]; rfl
    have e0 : ¬ m.coef = 0 := by rw [hq]; exact_mod_cast h0
    have e1 : ¬ m.coef = 1 := by rw [hq]; exact_mod_cast h1
    have en : m.coef.num = c := by rw [hq]; rfl
    have ed : ¬ (false || m.coef.den != 1) = true := by rw [hq]; simp
    rw [hr, hf, Np.runInts, if_neg e0, if_neg ed, if_neg e1, en]
    refine ⟨fun hi => ?_, fun hi => ?_⟩
    · rw [if_pos ((Np.has_iff hbits _).2 hi)]; exact ⟨_, rfl⟩
    · rw [if_neg fun h => hi ((Np.has_iff hbits _).1 h)]
  · have h0 := (hc' 0).symm.trans (hc 0)
    simp [runOps, COp.run, bind, Except.bind] at h0

/-- an hour as in the shipped database: 60 minutes of 60 seconds -/
def Demo.minute : Ref := Demo.u (.mul (Demo.int 60) (.ident c!"s"))
def Demo.hour : Ref := .unit none (.mul (Demo.int 60) (.ident c!"min")) [(c!"min", Demo.minute)]

theorem Demo.hour_seconds (x : ℝ) : convert (.unit Demo.hour) (.unit Demo.s) x = .ok (3600 * x) := by
  rw [convert_runs (ops := [.scale ⟨3600, []⟩]) (ops' := [.scale ⟨3600, []⟩]) (by decide +kernel) (by decide +kernel) (by decide +kernel)]
  simp [runOps, COp.run, bind, Except.bind]

theorem Demo.hour_ints (τ : Np.IntType) (xs : List Int) : Np.convertInts (.unit Demo.hour) (.unit Demo.s) τ xs =
    if τ.has 3600 then .ok (.ints (xs.map fun x => τ.wrap (3600 * x))) else .ok .refused := by
  have h1 : Converter.build (.unit Demo.hour) (.unit Demo.s) = .ok [.scale ⟨3600, []⟩] := by decide +kernel
  have h2 : simplifyOps ⟨1, []⟩ [.scale ⟨3600, []⟩] = .ok [.scale ⟨3600, []⟩] := by decide +kernel
  have h3 : (UObj.unit Demo.hour).hasFloat = .ok false := by decide +kernel
  have h4 : (UObj.unit Demo.s).hasFloat = .ok false := by decide +kernel
  simp [Np.convertInts, h1, h2, h3, h4, bind, Except.bind, COp.hasSymbol, Np.runInts]
  rfl

/-- **C84.** And when floats: if one of the definitions, written out, has a number written with a point or an exponent as a factor,
the integers of the array play no part any more - no overflow and no refusal. -/
theorem C84_points {a b : UObj} (ha : NoTransformation a) (hb : NoTransformation b) (hp : PointUnit a ∨ PointUnit b)
    {τ : Np.IntType} {xs : List Int} {r : Np.IntResult} (h : Np.convertInts a b τ xs = .ok r) :
    (∃ ys, r = .floats ys) ∨ r = .zero := by
  rcases Np.convertInts_ops ha hb with ⟨e', h1, h2⟩ | ⟨m, f1, f2, hm, g1, g2, ⟨hc', hr⟩ | ⟨hc', hr⟩⟩
  · rw [h2] at h; cases h
  · have hf : (f1 || f2) = true := by
      rcases hp with hp | hp
      · rw [Np.point_unit hp] at g1; cases g1; rfl
      · rw [Np.point_unit hp] at g2; cases g2; exact Bool.or_true _
    rw [hr, hf, Np.runInts] at h
    split at h
    · cases h; exact .inr rfl
    · rw [if_pos (by rfl)] at h
      cases h; exact .inl ⟨_, rfl⟩
  · rw [hr] at h
    cases h; exact .inl ⟨_, rfl⟩

/-- "1e3 m", and its conversion to metres -/
def Demo.thousand : Ref := Demo.u (.mul (.number (.dec ⟨false, 1, 3⟩) none) (.ident c!"m"))

example : NoTransformation (.unit Demo.thousand) ∧ NoTransformation (.unit Demo.m) ∧ PointUnit (.unit Demo.thousand) :=
  ⟨⟨⟨1000, [(c!"metre", 1)]⟩, by decide +kernel⟩, ⟨⟨1, [(c!"metre", 1)]⟩, by decide +kernel⟩,
    ⟨.mul (.number (.dec ⟨false, 1, 3⟩) none) (.ident c!"metre"), by decide +kernel, ⟨trivial, trivial⟩,
      .mulLeft _ _ (.number _ _ (by decide))⟩⟩

/-- **C84 (refuted).** "Converting an array is converting each of its elements" is false of integers: a million hours are
3 600 000 000 seconds, but converted in an array of 32-bit integers -694 967 296; and no array of bytes can be converted. -/
theorem C84_elementwise_refuted : convert (.unit Demo.hour) (.unit Demo.s) 1000000 = .ok 3600000000 ∧
    Np.convertInts (.unit Demo.hour) (.unit Demo.s) ⟨32, true⟩ [1, 1000000] = .ok (.ints [3600, -694967296]) ∧
    Np.convertInts (.unit Demo.hour) (.unit Demo.s) ⟨8, true⟩ [0] = .ok .refused := by
  refine ⟨by rw [Demo.hour_seconds]; norm_num, ?_, ?_⟩
  · rw [Demo.hour_ints, if_pos (by decide)]
    congr 2
  · rw [Demo.hour_ints, if_neg (by decide)]

/-- hours and seconds meet the hypotheses of C84 -/
example : NoTransformation (.unit Demo.hour) ∧ NoTransformation (.unit Demo.s) ∧ WholeUnit (.unit Demo.hour) ∧ WholeUnit (.unit Demo.s) ∧
    InType ⟨32, true⟩ 3600 ∧ ¬ InType ⟨8, false⟩ 3600 ∧ Kept ⟨32, true⟩ 3600000000 (-694967296) := by
  refine ⟨⟨⟨3600, [(c!"second", 1)]⟩, by decide +kernel⟩, ⟨⟨1, [(c!"second", 1)]⟩, by decide +kernel⟩,
    ⟨.mul (Demo.int 60) (.mul (Demo.int 60) (.ident c!"second")), by decide +kernel, ⟨trivial, trivial, trivial⟩⟩,
    ⟨.ident c!"second", by decide +kernel, trivial⟩, ?_, ?_, ?_, -1, ?_⟩
  · simp [InType]
  · simp [InType]
  · simp [InType]
  · norm_num

end Verif
