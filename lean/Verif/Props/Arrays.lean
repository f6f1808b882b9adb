import Verif.Lemmas.Arrays
import Verif.Props.Convert
/-!
# C72: converting numpy arrays
-/

namespace Verif

/-- an element converted on its own: nan and infinities stay, and an element without a real result becomes one -/
noncomputable def Spec.convertedElement (a b : UObj) : Option ℝ → Option ℝ
  | none => none
  | some x => (convert a b x).toOption

/-- **C72.** Unless all numbers convert to the same one, converting an array, of any shape, gives an array of that shape, each
element converted on its own. -/
theorem C72_elementwise {a b : UObj} {x y r s : ℝ} (hx : convert a b x = .ok r) (hy : convert a b y = .ok s) (hne : r ≠ s)
    {mem : Np.Mem} {i : Nat} {arr : Np.Arr} (h : mem[i]? = some arr) :
    ∃ (j : Nat) (mem' : Np.Mem), Np.convert a b (.ref i) mem = .ok (.ref j, mem') ∧
      mem'[j]? = some ⟨arr.shape, arr.elems.map (Spec.convertedElement a b)⟩ := by
  rcases Np.convert_ops a b with ⟨e, h1, -⟩ | ⟨ops, hs, h1, h2⟩
  · rw [h1] at hx; cases hx
  · have hz : ∀ op ∈ ops, ¬ Np.Zero op := fun op ho hz =>
      hne (Np.zero_constant ⟨op, ho, hz⟩ ((h1 x).symm.trans hx) ((h1 y).symm.trans hy))
    obtain ⟨j, mem', g1, g2, -⟩ := Np.run_ref hs hz h
    refine ⟨j, mem', by rw [h2]; exact g1, ?_⟩
    rw [g2]
    congr 2
    refine List.map_congr_left fun z _ => ?_
    cases z with
    | none => rfl
    | some z => simp only [Np.elemRun, Spec.convertedElement, h1]

/-- **C72.** No array that existed before is changed, whatever comes out. -/
theorem C72_arrays_unchanged {a b : UObj} {v v' : Np.Val} {mem mem' : Np.Mem} (h : Np.convert a b v mem = .ok (v', mem')) {k : Nat}
    {arr : Np.Arr} (hk : mem[k]? = some arr) : mem'[k]? = some arr := by
  rcases Np.convert_ops a b with ⟨e, -, h2⟩ | ⟨ops, -, -, h2⟩
  · rw [h2] at h; cases h
  · rw [h2] at h
    obtain ⟨new, rfl⟩ := Np.run_grows h
    obtain ⟨hlt, -⟩ := List.getElem?_eq_some_iff.1 hk
    rw [List.getElem?_append_left hlt]
    exact hk

/-- **C72.** An array that comes out is a new one, or the conversion changes no number at all and the array given is returned. -/
theorem C72_new_array {a b : UObj} {mem mem' : Np.Mem} {i j : Nat} (hi : i < mem.length)
    (h : Np.convert a b (.ref i) mem = .ok (.ref j, mem')) : mem.length ≤ j ∨ (j = i ∧ ∀ x, convert a b x = .ok x) := by
  rcases Np.convert_ops a b with ⟨e, -, h2⟩ | ⟨ops, hs, h1, h2⟩
  · rw [h2] at h; cases h
  · rw [h2] at h
    by_cases hz : ∃ op ∈ ops, Np.Zero op
    · obtain ⟨y, mem', g⟩ := Np.run_zero hz hi
      rw [g] at h; cases h
    · obtain ⟨j', mem'', g1, -, g3⟩ := Np.run_ref hs (fun op ho hz' => hz ⟨op, ho, hz'⟩) (List.getElem?_eq_getElem hi)
      rw [g1] at h
      cases h
      rcases g3 with ⟨e, hd⟩ | g3
      · exact .inr ⟨e, fun x => by rw [h1]; exact Np.dropped_all hs hd x⟩
      · exact .inl g3

/-- **C72.** Converting an array raises only what converting every single number raises. -/
theorem C72_errors {a b : UObj} {mem : Np.Mem} {i : Nat} (hi : i < mem.length) {e : PyErr}
    (h : Np.convert a b (.ref i) mem = .error e) (x : ℝ) : convert a b x = .error e := by
  rcases Np.convert_ops a b with ⟨e', h1, h2⟩ | ⟨ops, hs, h1, h2⟩
  · rw [h2] at h; cases h; exact h1 x
  · rw [h2] at h
    by_cases hz : ∃ op ∈ ops, Np.Zero op
    · obtain ⟨y, mem', g⟩ := Np.run_zero hz hi
      rw [g] at h; cases h
    · obtain ⟨j', mem'', g1, -, -⟩ := Np.run_ref hs (fun op ho hz' => hz ⟨op, ho, hz'⟩) (List.getElem?_eq_getElem hi)
      rw [g1] at h; cases h

/-- `0 m` -/
def Demo.zero : Ref := Demo.u (.mul (Demo.int 0) (.ident c!"m"))

/-- **C72 refuted** without the hypothesis: an array of `0 m` in metres is the number 0, not an array. -/
theorem C72_shape_refuted (mem : Np.Mem) (i : Nat) : Np.convert (.unit Demo.zero) (.unit Demo.m) (.ref i) mem = .ok (.num (some 0), mem) := by
  have h : Converter.build (.unit Demo.zero) (.unit Demo.m) = .ok [.scale ⟨0, []⟩] := by decide +kernel
  have h' : simplifyOps ⟨1, []⟩ [.scale ⟨0, []⟩] = .ok [.scale ⟨0, []⟩] := by decide +kernel
  simp [Np.convert, h, h', bind, Except.bind, Np.run, COp.hasSymbol]

/-- **C72 refuted**, "conversions give new arrays": metres to metres returns the array it was given, so that changing the result
changes the values that were converted. -/
theorem C72_copy_refuted (mem : Np.Mem) (i : Nat) : Np.convert (.unit Demo.m) (.unit Demo.m) (.ref i) mem = .ok (.ref i, mem) := by
  have h : Converter.build (.unit Demo.m) (.unit Demo.m) = .ok [.scale ⟨1, []⟩] := by decide +kernel
  have h' : simplifyOps ⟨1, []⟩ [.scale ⟨1, []⟩] = .ok [.scale ⟨1, []⟩] := by decide +kernel
  simp [Np.convert, h, h', bind, Except.bind, Np.run, COp.hasSymbol]

/-- The README's example, as a 1 × 3 array: 32, 15 and -20 degC are 305.15, 288.15 and 253.15 K; the hypotheses of
`C72_elementwise` hold of these units. -/
example : (∀ x : ℝ, convert (.unit Demo.degC) (.unit (Demo.u (.ident c!"K"))) x = .ok (x + 273.15)) ∧
    ∃ (j : Nat) (mem' : Np.Mem), Np.convert (.unit Demo.degC) (.unit (Demo.u (.ident c!"K"))) (.ref 0)
        [⟨[1, 3], [some 32, some 15, some (-20)]⟩] = .ok (.ref j, mem') ∧
      mem'[j]? = some ⟨[1, 3], [some 305.15, some 288.15, some 253.15]⟩ := by
  have h : ∀ x : ℝ, convert (.unit Demo.degC) (.unit (Demo.u (.ident c!"K"))) x = .ok (x + 273.15) := by
    intro x
    rw [convert_runs (ops := [.add (27315/100), .scale ⟨1, []⟩]) (ops' := [.scale ⟨1, []⟩, .add (27315/100), .scale ⟨1, []⟩])
      (by decide +kernel) (by decide +kernel) (by decide +kernel)]
    simp [runOps, COp.run, bind, Except.bind]
    norm_num
  refine ⟨h, ?_⟩
  obtain ⟨j, mem', h1, h2⟩ := C72_elementwise (h 0) (h 1) (by norm_num) (mem := [⟨[1, 3], [some 32, some 15, some (-20)]⟩]) (i := 0) rfl
  refine ⟨j, mem', h1, ?_⟩
  rw [h2]
  simp only [List.map_cons, List.map_nil, Spec.convertedElement, h, Except.toOption]
  norm_num

end Verif
