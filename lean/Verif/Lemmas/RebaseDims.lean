import Verif.Lemmas.Rebase
/-!
# Redefining a basis unit: dimensionality, and conversions
-/

namespace Verif.Rebase
open Verif

variable {b : Str} {dr : Dims}

/-- `d'` is `d` with `dr` for the basis unit `b` -/
def DSub (b : Str) (dr d d' : Dims) : Prop :=
  ∀ s, Dims.power s d' = (if s = b then 0 else Dims.power s d) + Dims.power b d * Dims.power s dr

/-- a proper map -/
def WfD (d : Dims) : Prop := d.Nodup ∧ d.NoZero

/-- the same of what a reference has -/
inductive ORel (b : Str) (dr : Dims) : Option Dims → Option Dims → Prop
  | none : ORel b dr none none
  | some {d d' : Dims} : WfD d → WfD d' → DSub b dr d d' → ORel b dr (some d) (some d')

theorem dsub_nil : DSub b dr [] [] := by
  intro s
  have h : ∀ s, Dims.power s [] = 0 := fun _ => rfl
  rw [h, h]; simp

theorem dsub_empty {d' : Dims} (w : WfD d') (h : DSub b dr [] d') : d' = [] := by
  have hp : ∀ s, Dims.power s d' = 0 := fun s => by rw [h s]; simp [Dims.power, Dims.get?]
  exact List.isEmpty_iff.1 ((Dims.isEmpty_iff w.1 w.2).2 hp)

theorem addAll_sub {order : PyVal} {ud ud' : Dims} (w : WfD ud) (w' : WfD ud') (hu : DSub b dr ud ud') {r r' res : Dims}
    (hn : r.Nodup) (hn' : r'.Nodup) (hr : DSub b dr r r') (h : dimsAddAll order ud r = .ok res) :
    ∃ res', dimsAddAll order ud' r' = .ok res' ∧ res.Nodup ∧ res'.Nodup ∧ DSub b dr res res' := by
  cases order with
  | int o =>
    obtain ⟨x, a1, a2, a3⟩ := dimsAddAll_int o ud r hn
    obtain ⟨y, b1, b2, b3⟩ := dimsAddAll_int o ud' r' hn'
    rw [h] at a1; cases a1
    refine ⟨y, b1, a2, b2, fun s => ?_⟩
    rw [b3, a3, a3, ← Dims.power_eq_total w.1, ← Dims.power_eq_total w.1, ← Dims.power_eq_total w'.1, hr s, hu s]
    split <;> ring
  | str t =>
    cases ud with
    | nil =>
      cases h
      have := dsub_empty w' hu
      subst this
      exact ⟨r', rfl, hn, hn', hr⟩
    | cons q ud =>
      obtain ⟨k, v⟩ := q
      simp only [dimsAddAll] at h
      simp only [PyVal.mul, PyVal.add, bind, Except.bind] at h
      cases h

theorem loop_sub {look look' : Str → Option (Py (Option Dims))}
    (hl : ∀ n o, look n = some (.ok o) → ∃ o', look' n = some (.ok o') ∧ ORel b dr o o') : ∀ (items : List (Str × PyVal)) {r r' res : Dims},
    r.Nodup → r'.Nodup → DSub b dr r r' → dimsLoop look items r = .ok res →
    ∃ res', dimsLoop look' items r' = .ok res' ∧ res.Nodup ∧ res'.Nodup ∧ DSub b dr res res' := by
  intro items
  induction items with
  | nil => intro r r' res hn hn' hr h; cases h; exact ⟨r', rfl, hn, hn', hr⟩
  | cons q items ih =>
    obtain ⟨n, order⟩ := q
    intro r r' res hn hn' hr h
    rw [dimsLoop] at h
    cases hk : look n with
    | none => rw [hk] at h; cases h
    | some p =>
      rw [hk] at h
      cases p with
      | error e => cases h
      | ok o =>
        obtain ⟨o', e1, h1⟩ := hl n o hk
        rw [dimsLoop, e1]
        cases h1 with
        | none => exact ih hn hn' hr h
        | some w w' hs =>
          rename_i ud ud'
          simp only [bind, Except.bind] at h ⊢
          cases h2 : dimsAddAll order ud r with
          | error e => rw [h2] at h; cases h
          | ok r1 =>
            rw [h2] at h
            obtain ⟨r1', a1, a2, a3, a4⟩ := addAll_sub w w' hs hn hn' hr h2
            rw [a1]
            exact ih a2 a3 a4 h

theorem unitDims_sub {look look' : Str → Option (Py (Option Dims))}
    (hl : ∀ n o, look n = some (.ok o) → ∃ o', look' n = some (.ok o') ∧ ORel b dr o o') {e : Node} {d : Dims}
    (h : unitDims look e = .ok d) : ∃ d', unitDims look' e = .ok d' ∧ DSub b dr d d' := by
  unfold unitDims at h ⊢
  cases hs : e.split true with
  | error x => rw [hs] at h; cases h
  | ok q =>
    obtain ⟨t, n⟩ := q
    rw [hs] at h
    simp only [bind, Except.bind] at h ⊢
    cases hc : n.dimCount with
    | error x => rw [hc] at h; cases h
    | ok items =>
      rw [hc] at h
      simp only at h ⊢
      cases hd : dimsLoop look items [] with
      | error x => rw [hd] at h; cases h
      | ok res =>
        rw [hd] at h
        cases h
        obtain ⟨res', a1, a2, a3, a4⟩ := loop_sub hl items (r := []) (r' := []) (by simp [Dims.Nodup]) (by simp [Dims.Nodup]) dsub_nil hd
        rw [a1]
        refine ⟨_, rfl, fun s => ?_⟩
        rw [Dims.power_dropZero a3, Dims.power_dropZero a2, Dims.power_dropZero a2]
        exact a4 s

mutual
theorem dims?_rebase {r : Ref} (hr : r.dims? = .ok (some dr)) : ∀ (a : Ref) {o : Option Dims}, a.Dimensional b → a.dims? = .ok o →
    ∃ o', (a.rebase b r).dims? = .ok o' ∧ ORel b dr o o'
  | .basis b', o, hd, h => by
    rw [Ref.Dimensional] at hd
    have h0 := h
    rw [Ref.dims?] at h; cases h
    rw [Ref.rebase]
    by_cases hb : b'.ref = b
    · rw [if_pos hb, hr]
      refine ⟨_, rfl, .some (dims?_wf h0) (dims?_wf hr) fun s => ?_⟩
      rw [hd hb]
      subst hb
      simp only [Bool.false_eq_true, if_false, Dims.power_cons]
      by_cases hs : s = b'.ref
      · subst hs; simp
      · simp [hs, Ne.symm hs, Dims.power, Dims.get?]
    · rw [if_neg hb]
      refine ⟨_, by rw [Ref.dims?], .some (dims?_wf h0) (dims?_wf h0) fun s => ?_⟩
      have hz : Dims.power b (if b'.dimensionless then [] else [(b', 1)]) = 0 := by
        split
        · rfl
        · rw [Dims.power_cons, if_neg hb]; rfl
      rw [hz]
      by_cases hs : s = b
      · subst hs; rw [hz]; simp
      · simp [hs]
  | .pre p, o, _, h => by
    rw [Ref.dims?] at h; cases h
    exact ⟨none, by rw [Ref.rebase, Ref.dims?], .none⟩
  | .unit n e refs, o, hd, h => by
    have h0 := h
    rw [Ref.Dimensional] at hd
    rw [Ref.dims?] at h
    cases h1 : unitDims (fun n => Dict.get n (Ref.dimsList refs)) e with
    | error x => rw [h1] at h; cases h
    | ok d =>
      rw [h1] at h; cases h
      obtain ⟨d', e1, s1⟩ := unitDims_sub (dimsList_rebase hr refs hd) h1
      have e2 : ((Ref.unit n e refs).rebase b r).dims? = .ok (some d') := by rw [Ref.rebase, Ref.dims?, e1]; rfl
      exact ⟨some d', e2, .some (dims?_wf h0) (dims?_wf e2) s1⟩
theorem dimsList_rebase {r : Ref} (hr : r.dims? = .ok (some dr)) : ∀ (l : List (Str × Ref)), Ref.DimensionalAll b l →
    ∀ (n : Str) (o : Option Dims), Dict.get n (Ref.dimsList l) = some (.ok o) →
      ∃ o', Dict.get n (Ref.dimsList (Ref.rebaseAll b l r)) = some (.ok o') ∧ ORel b dr o o'
  | [], _, n, o, h => by rw [Ref.dimsList] at h; cases h
  | (k, a) :: rest, hd, n, o, h => by
    rw [Ref.DimensionalAll] at hd
    rw [Ref.dimsList, Dict.get] at h
    rw [Ref.rebaseAll, Ref.dimsList, Dict.get]
    by_cases hk : k = n
    · rw [if_pos hk] at h ⊢
      obtain ⟨o', e1, s1⟩ := dims?_rebase hr a hd.1 (Option.some.inj h)
      exact ⟨o', by rw [e1], s1⟩
    · rw [if_neg hk] at h ⊢
      exact dimsList_rebase hr rest hd.2 n o h
end

theorem dims?_of_dims {r : Ref} {d : Dims} (h : r.dims = .ok d) : r.dims? = .ok (some d) := by
  unfold Ref.dims at h
  cases hd : r.dims? with
  | error e => rw [hd] at h; cases h
  | ok o =>
    rw [hd] at h
    cases o with
    | none => cases h
    | some d' => cases h; rfl

theorem dims_of_dims? {r : Ref} {d : Dims} (h : r.dims? = .ok (some d)) : r.dims = .ok d := by
  unfold Ref.dims; rw [h]; rfl

theorem dims_rebase {r : Ref} (hr : r.dims = .ok dr) {a : Ref} {d : Dims} (hd : a.Dimensional b) (h : a.dims = .ok d) :
    ∃ d', (a.rebase b r).dims = .ok d' ∧ DSub b dr d d' := by
  obtain ⟨o', e1, s1⟩ := dims?_rebase (dims?_of_dims hr) a hd (dims?_of_dims h)
  cases s1 with
  | some _ _ hs => exact ⟨_, dims_of_dims? e1, hs⟩

end Verif.Rebase
