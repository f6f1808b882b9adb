import Verif.Model.Frames
import Verif.Spec.Frames
/-!
# Lemmas about nested calls
-/

namespace Verif
open Frames

namespace Needs
variable {α β : Type}

theorem mono {f : Nat → Py α} {x : Py α} {n m : Nat} (h : Needs f x n) (hm : n ≤ m) : Needs f x m := by
  obtain ⟨need, h1, h2⟩ := h
  exact ⟨need, by omega, h2⟩

theorem congr {f g : Nat → Py α} {x : Py α} {n : Nat} (h : ∀ k, f k = g k) (hg : Needs g x n) : Needs f x n := by
  obtain ⟨need, h1, h2⟩ := hg
  exact ⟨need, h1, fun k => (h k).trans (h2 k)⟩

theorem pure (x : Py α) : Needs (fun _ => x) x 0 :=
  ⟨0, Nat.le_refl 0, fun k => by rw [if_pos (Nat.zero_le k)]⟩

theorem calls {f : Nat → Py α} {x : Py α} {n : Nat} (c : Nat) (h : Needs f x n) :
    Needs (fun k => Frames.calls c k f) x (n + c) := by
  obtain ⟨need, h1, h2⟩ := h
  refine ⟨need + c, by omega, fun k => ?_⟩
  show Frames.calls c k f = _
  unfold Frames.calls
  by_cases hk : k < c
  · rw [if_pos hk, if_neg (by omega)]
  · rw [if_neg hk, h2]
    by_cases hn : need + c ≤ k
    · rw [if_pos (by omega), if_pos hn]
    · rw [if_neg (by omega), if_neg hn]

theorem bind {f : Nat → Py α} {x : Py α} {n m : Nat} {g : α → Nat → Py β} {y : α → Py β} (h : Needs f x n)
    (hg : ∀ v, x = .ok v → Needs (g v) (y v) m) : Needs (fun k => f k >>= fun v => g v k) (x >>= y) (max n m) := by
  obtain ⟨need, h1, h2⟩ := h
  cases x with
  | error e =>
    refine ⟨need, by omega, fun k => ?_⟩
    show (f k >>= fun v => g v k) = _
    rw [h2]
    by_cases hk : need ≤ k
    · rw [if_pos hk, if_pos hk]; rfl
    · rw [if_neg hk, if_neg hk]; rfl
  | ok v =>
    obtain ⟨need', h1', h2'⟩ := hg v rfl
    refine ⟨max need need', by omega, fun k => ?_⟩
    show (f k >>= fun v => g v k) = _
    rw [h2]
    by_cases hk : need ≤ k
    · rw [if_pos hk]
      show g v k = _
      rw [h2']
      by_cases hk' : need' ≤ k
      · rw [if_pos hk', if_pos (by omega)]; rfl
      · rw [if_neg hk', if_neg (by omega)]
    · rw [if_neg hk, if_neg (by omega)]; rfl

theorem enough {f : Nat → Py α} {x : Py α} {n k : Nat} (h : Needs f x n) (hk : n ≤ k) : f k = x := by
  obtain ⟨need, h1, h2⟩ := h
  rw [h2, if_pos (by omega)]

/-- one call and the children of a node -/
theorem binary {f g : Nat → Py α} {x y : Py α} {n m c : Nat} {h : α → α → Py β} (hf : Needs f x n) (hg : Needs g y m) :
    Needs (fun k => Frames.calls c k fun k => f k >>= fun a => g k >>= fun b => h a b) (x >>= fun a => y >>= fun b => h a b)
      (max n m + c) :=
  .calls c (.mono (.bind hf fun _ _ => .bind hg fun _ _ => .pure _) (by omega))

theorem unary {f : Nat → Py α} {x : Py α} {n c : Nat} {h : α → Py β} (hf : Needs f x n) :
    Needs (fun k => Frames.calls c k fun k => f k >>= fun a => h a) (x >>= fun a => h a) (n + c) :=
  .calls c (.mono (.bind hf fun _ _ => .pure _) (by omega))

theorem leaf (c : Nat) (x : Py α) : Needs (fun k => Frames.calls c k fun _ => x) x c :=
  .mono (.calls c (.pure x)) (by omega)

end Needs

namespace Frames

theorem needs_str : ∀ e : Node, Needs (str e) (.ok e.str) (e.depth + 1)
  | .number _ _ => by refine Needs.congr (fun k => by rw [str]) ?_; exact .leaf 1 _
  | .ident _ => by refine Needs.congr (fun k => by rw [str]) ?_; exact .leaf 1 _
  | .unhandled _ => by refine Needs.congr (fun k => by rw [str]) ?_; exact .leaf 1 _
  | .mul a b => by
    refine Needs.congr (fun k => by rw [str]) ?_
    exact (Needs.binary (needs_str a) (needs_str b)).mono (by simp only [Node.depth]; omega)
  | .div a b => by
    refine Needs.congr (fun k => by rw [str]) ?_
    exact (Needs.binary (needs_str a) (needs_str b)).mono (by simp only [Node.depth]; omega)
  | .raise a b => by
    refine Needs.congr (fun k => by rw [str]) ?_
    exact (Needs.binary (needs_str a) (needs_str b)).mono (by simp only [Node.depth]; omega)
  | .shift a b => by
    refine Needs.congr (fun k => by rw [str]) ?_
    exact (Needs.binary (needs_str a) (needs_str b)).mono (by simp only [Node.depth]; omega)
  | .log _ a => by
    refine Needs.congr (fun k => by rw [str]) ?_
    exact (Needs.unary (needs_str a)).mono (by simp only [Node.depth]; omega)

theorem needs_identifiers : ∀ e : Node, Needs (identifiers e) (.ok e.identifiers) (2 * e.depth + 3)
  | .number _ _ => by refine Needs.congr (fun k => by rw [identifiers]) ?_; exact .leaf 3 _
  | .ident _ => by refine Needs.congr (fun k => by rw [identifiers]) ?_; exact .leaf 3 _
  | .unhandled _ => by refine Needs.congr (fun k => by rw [identifiers]) ?_; exact .leaf 3 _
  | .mul a b => by
    refine Needs.congr (fun k => by rw [identifiers]) ?_
    exact (Needs.binary (needs_identifiers a) (needs_identifiers b)).mono (by simp only [Node.depth]; omega)
  | .div a b => by
    refine Needs.congr (fun k => by rw [identifiers]) ?_
    exact (Needs.binary (needs_identifiers a) (needs_identifiers b)).mono (by simp only [Node.depth]; omega)
  | .raise a b => by
    refine Needs.congr (fun k => by rw [identifiers]) ?_
    exact (Needs.binary (needs_identifiers a) (needs_identifiers b)).mono (by simp only [Node.depth]; omega)
  | .shift a b => by
    refine Needs.congr (fun k => by rw [identifiers]) ?_
    exact (Needs.binary (needs_identifiers a) (needs_identifiers b)).mono (by simp only [Node.depth]; omega)
  | .log _ a => by
    refine Needs.congr (fun k => by rw [identifiers]) ?_
    exact (Needs.unary (needs_identifiers a)).mono (by simp only [Node.depth]; omega)

theorem needs_substitute (subs : Dict Str Node) : ∀ e : Node, Needs (substitute subs e) (.ok (e.substitute subs)) (2 * e.depth + 3)
  | .number _ _ => by refine Needs.congr (fun k => by rw [substitute]) ?_; exact (Needs.leaf 2 _).mono (by simp only [Node.depth]; omega)
  | .ident n => by
    unfold Node.substitute
    refine Needs.congr (fun k => by rw [substitute]) ?_
    cases Dict.get n subs with
    | none => exact .leaf 3 _
    | some e => exact .leaf 3 _
  | .unhandled _ => by refine Needs.congr (fun k => by rw [substitute]) ?_; exact (Needs.leaf 2 _).mono (by simp only [Node.depth]; omega)
  | .mul a b => by
    refine Needs.congr (fun k => by rw [substitute]) ?_
    exact (Needs.binary (needs_substitute subs a) (needs_substitute subs b)).mono (by simp only [Node.depth]; omega)
  | .div a b => by
    refine Needs.congr (fun k => by rw [substitute]) ?_
    exact (Needs.binary (needs_substitute subs a) (needs_substitute subs b)).mono (by simp only [Node.depth]; omega)
  | .raise a b => by
    refine Needs.congr (fun k => by rw [substitute]) ?_
    exact (Needs.binary (needs_substitute subs a) (needs_substitute subs b)).mono (by simp only [Node.depth]; omega)
  | .shift a b => by
    refine Needs.congr (fun k => by rw [substitute]) ?_
    exact (Needs.binary (needs_substitute subs a) (needs_substitute subs b)).mono (by simp only [Node.depth]; omega)
  | .log _ a => by
    refine Needs.congr (fun k => by rw [substitute]) ?_
    exact (Needs.unary (needs_substitute subs a)).mono (by simp only [Node.depth]; omega)

theorem split_mul (a b : Node) (r : Bool) : (Node.mul a b).split r = (a.split false >>= fun x => b.split false >>= fun y => splitMul x y) := by
  simp only [Node.split, bind, Except.bind]
  cases a.split false with
  | error e => rfl
  | ok x =>
    cases b.split false with
    | error e => rfl
    | ok y => rfl

theorem split_div (a b : Node) (r : Bool) : (Node.div a b).split r = (a.split false >>= fun x => b.split false >>= fun y => splitDiv x y) := by
  simp only [Node.split, bind, Except.bind]
  cases a.split false with
  | error e => rfl
  | ok x =>
    cases b.split false with
    | error e => rfl
    | ok y => rfl

theorem split_raise (a b : Node) (r : Bool) :
    (Node.raise a b).split r = (a.split false >>= fun x => b.split false >>= fun y => splitRaise x y) := by
  simp only [Node.split, bind, Except.bind]
  cases a.split false with
  | error e => rfl
  | ok x =>
    cases b.split false with
    | error e => rfl
    | ok y => rfl

theorem split_shift (u f : Node) (r : Bool) : (Node.shift u f).split r = (u.split false >>= fun x =>
    .ok (if r then (some (.shift (Trans.orValue x.1) f), x.2) else (some (Trans.orValue x.1), x.2))) := by
  simp only [Node.split, bind, Except.bind]
  cases u.split false with
  | error e => rfl
  | ok x => cases r <;> rfl

theorem split_log (fn : Str) (t : Node) (r : Bool) : (Node.log fn t).split r = (t.split false >>= fun x =>
    .ok (some (.log fn (Trans.orValue x.1)), x.2)) := by
  simp only [Node.split, bind, Except.bind]

theorem needs_split : ∀ (e : Node) (r : Bool), Needs (split e r) (e.split r) (2 * e.depth + 2)
  | .number _ _, _ => by refine Needs.congr (fun k => by rw [split]) ?_; exact .leaf 2 _
  | .ident _, _ => by refine Needs.congr (fun k => by rw [split]) ?_; exact .leaf 2 _
  | .unhandled _, _ => by refine Needs.congr (fun k => by rw [split]) ?_; exact .leaf 2 _
  | .mul a b, r => by
    rw [split_mul]; refine Needs.congr (fun k => by rw [split]) ?_
    exact (Needs.binary (needs_split a _) (needs_split b _)).mono (by simp only [Node.depth]; omega)
  | .div a b, r => by
    rw [split_div]; refine Needs.congr (fun k => by rw [split]) ?_
    exact (Needs.binary (needs_split a _) (needs_split b _)).mono (by simp only [Node.depth]; omega)
  | .raise a b, r => by
    rw [split_raise]; refine Needs.congr (fun k => by rw [split]) ?_
    exact (Needs.binary (needs_split a _) (needs_split b _)).mono (by simp only [Node.depth]; omega)
  | .shift u f, r => by
    rw [split_shift]; refine Needs.congr (fun k => by rw [split]) ?_
    exact (Needs.unary (needs_split u _)).mono (by simp only [Node.depth]; omega)
  | .log _ a, r => by
    rw [split_log]; refine Needs.congr (fun k => by rw [split]) ?_
    exact (Needs.unary (needs_split a _)).mono (by simp only [Node.depth]; omega)

theorem needs_dimCount : ∀ e : Node, Needs (dimCount e) e.dimCount (2 * e.depth + 3)
  | .number _ _ => by refine Needs.congr (fun k => by rw [dimCount]) ?_; exact (Needs.leaf 2 _).mono (by simp only [Node.depth]; omega)
  | .ident _ => by refine Needs.congr (fun k => by rw [dimCount]) ?_; exact .leaf 3 _
  | .unhandled _ => by refine Needs.congr (fun k => by rw [dimCount]) ?_; exact (Needs.leaf 2 _).mono (by simp only [Node.depth]; omega)
  | .mul a b => by
    refine Needs.congr (fun k => by rw [dimCount]) ?_
    exact (Needs.binary (needs_dimCount a) (needs_dimCount b)).mono (by simp only [Node.depth]; omega)
  | .div a b => by
    refine Needs.congr (fun k => by rw [dimCount]) ?_
    exact (Needs.binary (needs_dimCount a) (needs_dimCount b)).mono (by simp only [Node.depth]; omega)
  | .raise a b => by
    cases b with
    | number n r =>
      refine Needs.congr (fun k => by rw [dimCount]) ?_
      exact (Needs.unary (needs_dimCount a)).mono (by simp only [Node.depth]; omega)
    | _ =>
      refine Needs.congr (fun k => by rw [dimCount]) ?_
      exact (Needs.leaf 2 _).mono (by simp only [Node.depth]; omega)
  | .shift a _ => by
    refine Needs.congr (fun k => by rw [dimCount]) ?_
    exact (Needs.calls 2 (needs_dimCount a)).mono (by simp only [Node.depth]; omega)
  | .log _ a => by
    refine Needs.congr (fun k => by rw [dimCount]) ?_
    exact (Needs.calls 2 (needs_dimCount a)).mono (by simp only [Node.depth]; omega)

end Frames
end Verif
