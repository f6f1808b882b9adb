import Verif.Lemmas.ParserDepth
/-!
# A parse tree needs at most ten frames per token, and 24 more
-/

namespace Verif.PSim
open ParserTable
set_option maxRecDepth 100000

/-- no more tokens are left than there were -/
def Shrinks {τ : Type} (s : Toks) (_ : τ) (s' : Toks) : Prop := s'.length ≤ s.length

theorem shr_bind {τ τ' : Type} {g : G τ} {f : τ → G τ'} (h : Ret g Shrinks) (hf : ∀ a, Ret (f a) Shrinks) :
    Ret (g >>= f) Shrinks :=
  ret_bind h fun a => (hf a).mono fun _ _ _ h1 _ h2 => Nat.le_trans h1 h2

theorem shr_of_keeps {τ : Type} {g : G τ} (h : Ret g Keeps) : Ret g Shrinks := h.mono fun _ _ _ h => h ▸ Nat.le_refl _
theorem shr_of_leaf {g : G PTree} (h : Ret g Leaf) : Ret g Shrinks := h.mono fun _ _ _ h => by have := h.2; unfold Shrinks; omega

theorem shr_pure {τ : Type} {a : τ} : Ret (pure a : G τ) Shrinks := ret_pure fun _ => Nat.le_refl _

macro "shr" : tactic => `(tactic| repeat' with_reducible (first
  | assumption
  | exact shr_pure | exact ret_fail | exact ret_stuck | exact shr_of_keeps ret_la | exact shr_of_keeps ret_sync
  | exact shr_of_leaf (ret_tok (by decide)) | exact shr_of_leaf ret_tokIn
  | exact shr_of_keeps ret_precpred | exact shr_of_keeps ret_predict
  | apply ret_call | apply ret_withPrec | apply ret_ite | apply ret_remaining
  | refine shr_bind ?_ ?_ | intro _))

theorem ret_integer : Ret integerG fun s t s' => t.frames = 6 ∧ s.length = s'.length + 1 := by
  unfold integerG mkRule
  refine ret_bind (P := fun s ts s' => PTree.framesAll ts = 2 ∧ s.length = s'.length + 1) ?_ fun ts => ret_pure ?_
  · refine ret_bind ret_tokIn fun t => ret_pure ?_
    intro s1 s h
    rw [PTree.framesAll, PTree.framesAll, h.1]
    exact ⟨rfl, h.2⟩
  · intro s1 s h
    rw [PTree.frames, h.1]
    exact ⟨rfl, h.2⟩

theorem ret_number : Ret numberG fun s t s' => t.frames ≤ 10 ∧ s.length = s'.length + 1 := by
  unfold numberG mkRule
  refine ret_bind (P := fun s ts s' => PTree.framesAll ts ≤ 6 ∧ s.length = s'.length + 1) ?_ fun ts => ret_pure ?_
  · refine ret_bind ret_sync fun _ => ret_bind ret_la fun l => ret_ite ?_ (ret_ite ?_ ret_fail)
    · refine ret_bind (ret_call ret_integer) fun t => ret_pure ?_
      rintro s3 s2 h s1 rfl s rfl
      simp only [PTree.framesAll]; omega
    · refine ret_bind (ret_tok (by decide)) fun t => ret_pure ?_
      rintro s3 s2 h s1 rfl s rfl
      have := h.1; have := h.2
      simp only [PTree.framesAll]; omega
  · intro s1 s h
    rw [PTree.frames, if_neg (by decide)]
    omega

theorem ret_optTok {n : Nat} : Ret (G.optTok 18 n) fun s ts s' => PTree.framesAll ts ≤ 2 ∧ s'.length ≤ s.length := by
  unfold G.optTok
  refine ret_bind ret_sync fun _ => ret_bind ret_la fun l => ret_ite ?_ ?_
  · refine ret_bind (ret_tok (by decide)) fun t => ret_pure ?_
    rintro s3 s2 h s1 rfl s rfl
    have := h.1; have := h.2
    simp only [PTree.framesAll]; omega
  · refine ret_pure ?_
    rintro s3 s1 rfl s rfl
    simp only [PTree.framesAll]; omega

theorem shr_integer : Ret integerG Shrinks := ret_integer.mono fun _ _ _ h => by unfold Shrinks; omega
theorem shr_optTok {n : Nat} : Ret (G.optTok 18 n) Shrinks := ret_optTok.mono fun _ _ _ h => h.2
theorem shr_clock : Ret signedClockG Shrinks := by unfold signedClockG mkRule; have := shr_integer; shr
theorem shr_tz : Ret tzOffsetG Shrinks := by unfold tzOffsetG mkRule; have := shr_integer; shr
theorem shr_dateOrInt {s c : Nat} : Ret (dateOrIntG s c) Shrinks := by unfold dateOrIntG; have := shr_integer; shr
theorem shr_tzAny {s c : Nat} : Ret (tzAnyG s c) Shrinks := by unfold tzAnyG; have := shr_tz; shr
theorem shr_wsOrT : Ret wsOrTG Shrinks := by unfold wsOrTG; shr

theorem ret_timestamp : Ret timestampG fun s t s' => t.frames = 2 ∧ s'.length ≤ s.length := by
  unfold timestampG mkRule
  refine ret_bind (P := Shrinks) ?_ fun ts => ret_pure ?_
  · have := shr_integer; have := shr_clock; have := shr_wsOrT
    have h1 : ∀ a b, Ret (dateOrIntG a b) Shrinks := fun _ _ => shr_dateOrInt
    have h2 : ∀ a b, Ret (tzAnyG a b) Shrinks := fun _ _ => shr_tzAny
    have h3 : ∀ a, Ret (G.optTok 18 a) Shrinks := fun _ => shr_optTok
    repeat' (first | apply h1 | apply h2 | apply h3 | shr)
  · intro s1 s h
    rw [PTree.frames]
    exact ⟨rfl, h⟩

/-! ## Units -/

/-- the visitor raises nothing -/
def Fine (t : PTree) : Prop := ∃ v, visit t = .ok v

theorem fineAll : ∀ {ts : List PTree} {vs : List Val}, visitAll ts = .ok vs → ∀ t ∈ ts, Fine t := by
  intro ts
  induction ts with
  | nil => intro _ _ t ht; cases ht
  | cons t ts ih =>
    intro vs h u hu
    simp only [visitAll] at h
    cases hv : visit t with
    | error e => rw [hv] at h; cases h
    | ok v =>
      rw [hv] at h
      dsimp only at h
      cases hw : visitAll ts with
      | error e => rw [hw] at h; cases h
      | ok ws =>
        rcases List.mem_cons.1 hu with rfl | hu
        · exact ⟨v, hv⟩
        · exact ih hw u hu

theorem Fine.children {i : Nat} {ts : List PTree} (hi : i ≠ 8) (h : Fine (.rule i ts)) : ∀ t ∈ ts, Fine t := by
  obtain ⟨v, hv⟩ := h
  simp only [visit, if_neg hi] at hv
  cases hw : visitAll ts with
  | error e => rw [hw] at hv; cases hv
  | ok ws => exact fineAll hw

theorem not_fine_power : ¬ Fine (.rule 3 []) := by
  rintro ⟨v, hv⟩
  have : visit (.rule 3 []) = .error .unmodelled := rfl
  rw [this] at hv; cases hv

theorem not_fine_shift : ¬ Fine (.rule 1 []) := by
  rintro ⟨v, hv⟩
  have : visit (.rule 1 []) = .error .typeError := rfl
  rw [this] at hv; cases hv

/-- tokens are consumed, and pay for the frames -/
def Bound (K : Nat) (s : Toks) (t : PTree) (s' : Toks) : Prop :=
  Fine t → s'.length < s.length ∧ t.frames + 10 * s'.length ≤ 10 * s.length + K

section
variable {shift : G PTree} (hs : Ret shift (Bound 20))
include hs

theorem ret_basic : Ret (basicG shift) (Bound 4) := by
  unfold basicG mkRule
  refine ret_bind (P := fun s ts s' => Fine (.rule 5 ts) → s'.length < s.length ∧ PTree.framesAll ts + 10 * s'.length ≤ 10 * s.length) ?_
    fun ts => ret_pure ?_
  · refine ret_bind ret_sync fun _ => ret_bind ret_la fun l => ret_ite ?_ (ret_ite ?_ (ret_ite ?_ ret_fail))
    · refine ret_bind (ret_tok (by decide)) fun t => ret_pure ?_
      rintro s3 s2 h s1 rfl s rfl _
      have := h.1; have := h.2
      simp only [PTree.framesAll]; omega
    · refine ret_bind (ret_tok (by decide)) fun a => ret_bind (ret_call hs) fun b => ret_bind (ret_tok (by decide)) fun c => ret_pure ?_
      rintro s5 s4 hc s3 hb s2 ha s1 rfl s rfl hf
      have hb := hb (hf.children (by decide) b (by simp))
      have := ha.1; have := ha.2; have := hc.1; have := hc.2
      simp only [PTree.framesAll]; omega
    · refine ret_bind (ret_call ret_number) fun t => ret_pure ?_
      rintro s3 s2 h s1 rfl s rfl _
      simp only [PTree.framesAll]; omega
  · intro s1 s h hf
    have := h hf
    rw [PTree.frames, if_neg (by decide)]
    omega

theorem ret_logarithm : Ret (logarithmG shift) (Bound 8) := by
  unfold logarithmG mkRule
  refine ret_bind (P := fun s ts s' => Fine (.rule 4 ts) → s'.length < s.length ∧ PTree.framesAll ts + 10 * s'.length ≤ 10 * s.length + 4) ?_
    fun ts => ret_pure ?_
  · refine ret_bind ret_sync fun _ => ret_bind ret_la fun l => ret_ite ?_ (ret_ite ?_ ret_fail)
    · refine ret_bind (ret_call (ret_basic hs)) fun t => ret_pure ?_
      rintro s3 s2 h s1 rfl s rfl hf
      have := h (hf.children (by decide) t (by simp))
      simp only [PTree.framesAll]; omega
    · refine ret_bind (ret_tok (by decide)) fun a => ret_bind (ret_call hs) fun b => ret_bind (ret_tok (by decide)) fun c => ret_pure ?_
      rintro s5 s4 hc s3 hb s2 ha s1 rfl s rfl hf
      have hb := hb (hf.children (by decide) b (by simp))
      have := ha.1; have := ha.2; have := hc.1; have := hc.2
      simp only [PTree.framesAll]; omega
  · intro s1 s h hf
    have := h hf
    rw [PTree.frames, if_neg (by decide)]
    omega

theorem ret_power : Ret (powerG shift) (Bound 12) := by
  have hl := ret_logarithm hs
  unfold powerG mkRule
  refine ret_bind (P := fun s ts s' => Fine (.rule 3 ts) → s'.length < s.length ∧ PTree.framesAll ts + 10 * s'.length ≤ 10 * s.length + 8) ?_
    fun ts => ret_pure ?_
  · refine ret_bind ret_sync fun _ => ret_bind ret_predict fun l => ret_ite ?_ (ret_ite ?_ (ret_ite ?_ (ret_ite ?_ ?_)))
    · refine ret_bind (ret_call hl) fun a => ret_bind (ret_call ret_integer) fun b => ret_pure ?_
      rintro s4 s3 hb s2 ha s1 rfl s rfl hf
      have := ha (hf.children (by decide) a (by simp))
      simp only [PTree.framesAll]; omega
    · refine ret_bind (ret_call hl) fun a => ret_pure ?_
      rintro s3 s2 ha s1 rfl s rfl hf
      have := ha (hf.children (by decide) a (by simp))
      simp only [PTree.framesAll]; omega
    · refine ret_bind (ret_call hl) fun a => ret_bind (ret_tok (by decide)) fun r => ret_bind (ret_call ret_integer) fun b => ret_pure ?_
      rintro s5 s4 hb s3 hr s2 ha s1 rfl s rfl hf
      have := ha (hf.children (by decide) a (by simp))
      have := hr.1; have := hr.2
      simp only [PTree.framesAll]; omega
    · refine ret_bind (ret_call hl) fun a => ret_bind (ret_tok (by decide)) fun r => ret_pure ?_
      rintro s4 s3 hr s2 ha s1 rfl s rfl hf
      have := ha (hf.children (by decide) a (by simp))
      have := hr.1; have := hr.2
      simp only [PTree.framesAll]; omega
    · refine ret_pure ?_
      rintro s2 s1 rfl s rfl hf
      exact absurd hf not_fine_power
  · intro s1 s h hf
    have := h hf
    rw [PTree.frames, if_neg (by decide)]
    omega

omit hs in
theorem ret_wsPlus : ∀ n, Ret (wsPlusG n) fun s ts s' => PTree.framesAll ts ≤ 2 ∧ s'.length ≤ s.length
  | 0 => ret_stuck
  | n + 1 => by
    unfold wsPlusG
    refine ret_bind (ret_tok (by decide)) fun t => ret_bind ret_sync fun _ => ret_bind ret_la fun l => ret_ite ?_ ?_
    · refine ret_bind (ret_wsPlus n) fun ts => ret_pure ?_
      rintro s4 s3 h s2 rfl s1 rfl s ht
      have := ht.1; have := ht.2
      simp only [PTree.framesAll]; omega
    · refine ret_pure ?_
      rintro s3 s2 rfl s1 rfl s ht
      have := ht.1; have := ht.2
      simp only [PTree.framesAll]; omega

omit hs in
theorem framesAll_append (a b : List PTree) : PTree.framesAll (a ++ b) = max (PTree.framesAll a) (PTree.framesAll b) := by
  induction a with
  | nil => simp [PTree.framesAll]
  | cons x a ih => simp only [List.cons_append, PTree.framesAll, ih]; omega

/-- one more factor: either nothing changes, or a token pays for it -/
theorem ret_factor (l : PTree) : Ret (factorG shift l) fun s t s' => (t = l ∧ s' = s) ∨
    (Fine t → Fine l ∧ s'.length < s.length ∧ t.frames + 10 * s'.length ≤ max (l.frames + 10 * s.length) (10 * s.length + 16)) := by
  have hp := ret_power hs
  unfold factorG
  refine ret_bind ret_sync fun _ => ret_bind ret_predict fun alt => ret_ite ?_ (ret_ite ?_ (ret_ite ?_ (ret_ite ?_ ?_)))
  · refine ret_bind ret_precpred fun _ => ret_bind (ret_call hp) fun a => ret_pure ?_
    rintro s4 s3 ha s2 rfl s1 rfl s rfl
    refine Or.inr fun hf => ?_
    have := ha (hf.children (by decide) a (by simp))
    refine ⟨hf.children (by decide) l (by simp), this.1, ?_⟩
    rw [PTree.frames, if_neg (by decide)]
    simp only [PTree.framesAll]; omega
  · refine ret_bind ret_precpred fun _ => ret_bind (ret_tok (by decide)) fun o => ret_bind (ret_call hp) fun a => ret_pure ?_
    rintro s5 s4 ha s3 ho s2 rfl s1 rfl s rfl
    refine Or.inr fun hf => ?_
    have := ha (hf.children (by decide) a (by simp))
    have := ho.1; have := ho.2
    refine ⟨hf.children (by decide) l (by simp), by omega, ?_⟩
    rw [PTree.frames, if_neg (by decide)]
    simp only [PTree.framesAll]; omega
  · refine ret_bind ret_precpred fun _ => ret_bind (ret_tok (by decide)) fun o => ret_bind (ret_call hp) fun a => ret_pure ?_
    rintro s5 s4 ha s3 ho s2 rfl s1 rfl s rfl
    refine Or.inr fun hf => ?_
    have := ha (hf.children (by decide) a (by simp))
    have := ho.1; have := ho.2
    refine ⟨hf.children (by decide) l (by simp), by omega, ?_⟩
    rw [PTree.frames, if_neg (by decide)]
    simp only [PTree.framesAll]; omega
  · refine ret_bind ret_precpred fun _ => ret_bind ret_sync fun _ =>
      ret_bind (ret_remaining fun n => ret_wsPlus (n + 1)) fun ws => ret_bind (ret_call hp) fun a => ret_pure ?_
    rintro s6 s5 ha s4 hw s3 rfl s2 rfl s1 rfl s rfl
    refine Or.inr fun hf => ?_
    have := ha (hf.children (by decide) a (by simp))
    refine ⟨hf.children (by decide) l (by simp), by omega, ?_⟩
    rw [PTree.frames, if_neg (by decide), framesAll_append, framesAll_append]
    simp only [PTree.framesAll]; omega
  · refine ret_pure ?_
    rintro s2 s1 rfl s rfl
    exact Or.inl ⟨rfl, rfl⟩

theorem ret_productLoop : ∀ n alt l, Ret (productLoopG shift n alt l) fun s t s' =>
    Fine t → Fine l ∧ s'.length ≤ s.length ∧ t.frames + 10 * s'.length ≤ max (l.frames + 10 * s.length) (10 * s.length + 16)
  | 0, _, _ => ret_stuck
  | n + 1, alt, l => by
    unfold productLoopG
    refine ret_ite ?_ ?_
    · have hk : ∀ l', Ret (G.sync 72 >>= fun _ => G.predict 8 >>= fun alt => productLoopG shift n alt l') fun s t s' =>
          Fine t → Fine l' ∧ s'.length ≤ s.length ∧ t.frames + 10 * s'.length ≤ max (l'.frames + 10 * s.length) (10 * s.length + 16) :=
        fun l' => ret_bind ret_sync fun _ => ret_bind ret_predict fun alt => (ret_productLoop n alt l').mono
          fun s2 t s' h s1 e1 s e2 => by cases e1; cases e2; exact h
      dsimp only
      refine ret_ite (ret_bind (ret_factor hs l) fun l' => (hk l').mono ?_) ((hk l).mono ?_)
      · intro s1 t s' h s hl' hf
        have h := h hf
        rcases hl' with ⟨rfl, rfl⟩ | hl'
        · exact h
        · have hl := hl' h.1
          refine ⟨hl.1, by omega, ?_⟩
          omega
      · intro s t s' h
        exact h
    · refine ret_pure ?_
      intro s hf
      exact ⟨hf, Nat.le_refl _, by omega⟩

theorem ret_product : Ret (productG shift) (Bound 16) := by
  have hp := ret_power hs
  unfold productG
  refine ret_withPrec (ret_bind (ret_call hp) fun a => ret_bind ret_sync fun _ => ret_bind ret_predict fun alt =>
    ret_remaining fun n => (ret_productLoop hs (n + 2) alt (.rule 2 [a])).mono ?_)
  rintro s3 t s' h s2 rfl s1 rfl s ha hf
  have h := h hf
  have ha := ha (h.1.children (by decide) a (by simp))
  rw [PTree.frames, if_neg (by decide)] at h
  simp only [PTree.framesAll] at h
  omega

theorem ret_shiftStep : Ret (shiftSpecStepG shift) (Bound 20) := by
  have hp := ret_product hs
  unfold shiftSpecStepG mkRule
  refine ret_bind (P := fun s ts s' => Fine (.rule 1 ts) → s'.length < s.length ∧ PTree.framesAll ts + 10 * s'.length ≤ 10 * s.length + 16) ?_
    fun ts => ret_pure ?_
  · refine ret_bind ret_sync fun _ => ret_bind ret_predict fun l => ret_ite ?_ (ret_ite ?_ (ret_ite ?_ ?_))
    · refine ret_bind (ret_call hp) fun a => ret_pure ?_
      rintro s3 s2 ha s1 rfl s rfl hf
      have := ha (hf.children (by decide) a (by simp))
      simp only [PTree.framesAll]; omega
    · refine ret_bind (ret_call hp) fun a => ret_bind ret_optTok fun b => ret_bind (ret_tok (by decide)) fun c =>
        ret_bind ret_optTok fun d => ret_bind (ret_call ret_number) fun e => ret_pure ?_
      rintro s7 s6 he s5 hd s4 hc s3 hb s2 ha s1 rfl s rfl hf
      have := ha (hf.children (by decide) a (by simp))
      have := hc.1; have := hc.2
      simp only [framesAll_append, PTree.framesAll]; omega
    · refine ret_bind (ret_call hp) fun a => ret_bind ret_optTok fun b => ret_bind (ret_tok (by decide)) fun c =>
        ret_bind ret_optTok fun d => ret_bind (ret_call ret_timestamp) fun e => ret_pure ?_
      rintro s7 s6 he s5 hd s4 hc s3 hb s2 ha s1 rfl s rfl hf
      have := ha (hf.children (by decide) a (by simp))
      have := hc.1; have := hc.2
      simp only [framesAll_append, PTree.framesAll]; omega
    · refine ret_pure ?_
      rintro s2 s1 rfl s rfl hf
      exact absurd hf not_fine_shift
  · intro s1 s h hf
    have := h hf
    rw [PTree.frames, if_neg (by decide)]
    omega
end

theorem ret_shiftSpec : ∀ n, Ret (shiftSpecG n) (Bound 20)
  | 0 => ret_stuck
  | n + 1 => ret_shiftStep (ret_shiftSpec n)

theorem ret_unitSpec : Ret unitSpecG fun s t _ => Fine t → t.frames ≤ 10 * s.length + 24 := by
  unfold unitSpecG mkRule
  refine ret_bind (P := fun s ts _ => Fine (.rule 0 ts) → PTree.framesAll ts ≤ 10 * s.length + 20) ?_ fun ts => ret_pure ?_
  · have hk : ∀ a : List PTree, Ret (G.tok (-1) >>= fun e => (pure (a ++ [e]) : G (List PTree))) fun s ts s' =>
        s'.length ≤ s.length ∧ (Fine (.rule 0 ts) → ∀ t ∈ a, Fine t) ∧ PTree.framesAll ts ≤ max (PTree.framesAll a) 2 := by
      intro a
      refine ret_bind ret_eof fun e => ret_pure ?_
      intro s1 s he
      refine ⟨he.2, fun hf t ht => hf.children (by decide) t (by simp [ht]), ?_⟩
      simp only [framesAll_append, PTree.framesAll]; omega
    refine ret_bind ret_sync fun _ => ret_bind ret_la fun l => ?_
    dsimp only
    refine ret_ite (ret_bind (ret_call (ret_remaining fun n => ret_shiftSpec (n + 1))) fun t => (hk [t]).mono ?_) ((hk []).mono ?_)
    · rintro s3 ts s' h s2 ht s1 rfl s rfl hf
      have := ht (h.2.1 hf t (by simp))
      have := h.2.2
      simp only [PTree.framesAll] at this; omega
    · rintro s2 ts s' h s1 rfl s rfl hf
      have := h.2.2
      simp only [PTree.framesAll] at this; omega
  · intro s1 s h hf
    have := h hf
    rw [PTree.frames, if_neg (by decide)]
    omega

end Verif.PSim
