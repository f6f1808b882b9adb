import Verif.Lemmas.FramesUnit
import Verif.Lemmas.Order
import Verif.Props.Print
/-!
# A session in which units rest on ever more definitions
-/

namespace Verif
open Spec

theorem deepName_word (n : Nat) : IdentWord (deepName n) := by
  have hx : ∀ c ∈ deepName n, c = 'x' := fun c hc => List.eq_of_mem_replicate hc
  refine ⟨by simp [deepName], fun c hc => ?_, ?_, ?_, ?_, ?_⟩
  · rw [hx c hc]; decide
  all_goals
    intro h
    have := hx
    rw [h] at this
    first
      | exact absurd (this 'a' (by decide)) (by decide)
      | exact absurd (this 'o' (by decide)) (by decide)
      | exact absurd (this 's' (by decide)) (by decide)
      | exact absurd (this 'r' (by decide)) (by decide)

theorem deepName_inj {a b : Nat} (h : deepName a = deepName b) : a = b := by
  have := congrArg List.length h
  simp only [deepName, List.length_replicate] at this
  omega

theorem parse_deepName (n : Nat) : parse (deepName n) = .ok (.ident (deepName n)) :=
  C32_print_parse (.ident (deepName n)) (.product (.factor (.plain (.ident (deepName_word n)))))

/-- the definition of `deepUnit (n + 1)` -/
def deepDefn (n : Nat) : Node := .mul (.number (.int 2) (some c!"2")) (.ident (deepName n))

theorem parse_deepText (n : Nat) : parse (deepText n) = .ok (deepDefn n) := by
  have := C32_print_parse (deepDefn n)
    (.product (.mul (.factor (.plain .int)) (.plain (.ident (deepName_word n)))))
  have h2 : intStr 2 = c!"2" := by decide +kernel
  simpa [deepDefn, Node.str, deepText, respell, respellNum, Num.toStr, h2] using this

theorem mk_deep (names : Option UnitReference) (n : Nat) (refs : List (Str × Ref)) :
    mkUnit names (deepDefn n) refs = .ok (.unit names (deepDefn n) refs) := rfl

theorem mk_ident (names : Option UnitReference) (n : Str) (refs : List (Str × Ref)) :
    mkUnit names (.ident n) refs = .ok (.unit names (.ident n) refs) := rfl

/-- the system after `deepSession n` -/
structure DeepInv (n : Nat) (s : System) : Prop where
  last : Dict.get (deepName n) s.names = some (.unit (deepUnit n))
  free : ∀ m, n < m → Dict.get (deepName m) s.names = none
  aliases : s.aliasNames = []
  symbols : s.symbols = []

theorem deep_lookup (env : Env) (f n : Nat) (s : System) (r : Ref) (h : Dict.get (deepName n) s.names = some (.unit r)) :
    unitByNameOrSymbol env (f + 1) (deepName n) s = (.ok r, s) := by
  simp only [unitByNameOrSymbol, lookupStep, byNameOrSymbol, System.nameEntry, h, Option.or, fetch]

/-- asking for the last unit -/
theorem deep_unit (env : Env) (hp : env.parse = parse) (ho : ∀ l, (env.order l).Perm l) (f n : Nat) (s : System) (r : Ref)
    (h : Dict.get (deepName n) s.names = some (.unit r)) :
    System.unit env (f + 1) (deepName n) s = (.ok (.unit (.unit none (.ident (deepName n)) [(deepName n, r)])), s) := by
  have h1 : env.order [deepName n] = [deepName n] := List.perm_singleton.1 (ho _)
  simp only [System.unit, hp, parse_deepName, Node.identifiers, h1, lookupAll, deep_lookup env f n s r h]
  rfl

theorem deep_define {n : Nat} {s : System} (h : DeepInv n s) (env : Env) :
    ∃ s', (Step.define (deepText n) (onlyName (deepName (n + 1)))).apply env s = s' ∧
      s'.names = Dict.set (deepName (n + 1)) (.lazy s.heap.length) s.names ∧ s'.aliasNames = [] ∧ s'.symbols = [] ∧
      s'.heap[s.heap.length]? = some ⟨deepText n, onlyName (deepName (n + 1)), none⟩ := by
  refine ⟨_, rfl, ?_⟩
  have hf := h.free (n + 1) (Nat.lt_succ_self n)
  have hh : Dict.has (deepName (n + 1)) s.names = false := by
    unfold Dict.has; rw [hf]; rfl
  simp [Step.apply, System.alloc, System.addUnit, System.namesOf, System.collision, onlyName, nameKeys, truthy, hh,
    System.register, setAll, aliasKeys, h.aliases, h.symbols]

theorem deep_step {n : Nat} {s : System} (h : DeepInv n s) (env : Env) (hp : env.parse = parse) (ho : ∀ l, (env.order l).Perm l) :
    (System.unit env 2 (deepName (n + 1)) ((Step.define (deepText n) (onlyName (deepName (n + 1)))).apply env s)).1 =
      .ok (.unit (.unit none (.ident (deepName (n + 1))) [(deepName (n + 1), deepUnit (n + 1))])) ∧
    DeepInv (n + 1) (System.unit env 2 (deepName (n + 1))
      ((Step.define (deepText n) (onlyName (deepName (n + 1)))).apply env s)).2 := by
  obtain ⟨s', h0, h1, h2, h3, h4⟩ := deep_define h env
  rw [h0]
  have hne : deepName (n + 1) ≠ deepName n := fun hc => by have := deepName_inj hc; omega
  have hn1 : Dict.get (deepName (n + 1)) s'.names = some (.lazy s.heap.length) := by rw [h1, Dict.get_set_self]
  have hn0 : Dict.get (deepName n) s'.names = some (.unit (deepUnit n)) := by
    rw [h1, Dict.get_set_ne (Ne.symm hne)]; exact h.last
  have e1 : env.order [deepName (n + 1)] = [deepName (n + 1)] := List.perm_singleton.1 (ho _)
  have e0 : env.order [deepName n] = [deepName n] := List.perm_singleton.1 (ho _)
  have hi : (deepDefn n).identifiers = [deepName n] := rfl
  have hres : resolve env (unitByNameOrSymbol env 1) s.heap.length s' =
      (.ok (deepUnit (n + 1)), s'.setResolved s.heap.length (deepUnit (n + 1))) := by
    unfold resolve
    rw [h4]
    simp only [hp, parse_deepText, hi, e0, lookupAll, deep_lookup env 0 n s' _ hn0, mk_deep]
    rfl
  have hlook : unitByNameOrSymbol env 2 (deepName (n + 1)) s' = (.ok (deepUnit (n + 1)),
      (s'.setResolved s.heap.length (deepUnit (n + 1))).register (onlyName (deepName (n + 1))) (.unit (deepUnit (n + 1)))) := by
    rw [unitByNameOrSymbol]
    simp only [lookupStep, byNameOrSymbol, System.nameEntry, hn1, Option.or, fetch, hres]
    rfl
  have hunit : System.unit env 2 (deepName (n + 1)) s' =
      (.ok (.unit (.unit none (.ident (deepName (n + 1))) [(deepName (n + 1), deepUnit (n + 1))])),
      (s'.setResolved s.heap.length (deepUnit (n + 1))).register (onlyName (deepName (n + 1))) (.unit (deepUnit (n + 1)))) := by
    simp only [System.unit, hp, parse_deepName, Node.identifiers, e1, lookupAll, hlook]
    rfl
  rw [hunit]
  refine ⟨rfl, ?_, ?_, ?_, ?_⟩
  · show Dict.get _ (Dict.set _ _ _) = _
    rw [Dict.get_set_self]
  · intro m hm
    have k1 : deepName m ≠ deepName (n + 1) := fun hc => by have := deepName_inj hc; omega
    show Dict.get _ (Dict.set _ _ s'.names) = _
    rw [Dict.get_set_ne k1, h1, Dict.get_set_ne k1]
    exact h.free m (by omega)
  · exact h2
  · exact h3

theorem deep_session (env : Env) (hp : env.parse = parse) (ho : ∀ l, (env.order l).Perm l) :
    ∀ n, DeepInv n (live env (deepSession n) System.empty)
  | 0 => by
    refine ⟨?_, ?_, rfl, rfl⟩
    · show Dict.get _ (Dict.set _ _ _) = _
      rw [Dict.get_set_self]; rfl
    · intro m hm
      have k1 : deepName m ≠ deepName 0 := fun hc => by have := deepName_inj hc; omega
      show Dict.get _ (Dict.set (deepName 0) _ []) = _
      rw [Dict.get_set_ne k1]; rfl
  | n + 1 => by
    have ih := deep_session env hp ho n
    rw [deepSession, live, List.foldl_append]
    exact (deep_step ih env hp ho).2

/-- what the only reference needs is needed by the unit -/
theorem dims_only {names : Option UnitReference} {e : Node} {n : Str} {v : PyVal} {r : Ref} {k : Nat} (h1 : e.split true = .ok (none, e))
    (h2 : e.dimCount = .ok [(n, v)]) (h : Frames.dims? r k = .error .recursionError) :
    Frames.dims? (.unit names e [(n, r)]) (k + 1) = .error .recursionError := by
  show (Frames.unitDims (fun m => Dict.get m (Frames.dimsList [(n, r)])) e (k + 1) >>= fun d => .ok (some d)) = _
  have h0 : Frames.unitDims (fun m => Dict.get m (Frames.dimsList [(n, r)])) e (k + 1) = .error .recursionError := by
    simp only [Frames.unitDims, Frames.calls, if_neg (show ¬ k + 1 < 1 by omega), Nat.add_sub_cancel]
    obtain ⟨m1, _, h3⟩ := Frames.needs_split e true
    rw [h3 k, h1]
    by_cases hk : m1 ≤ k
    · rw [if_pos hk]
      obtain ⟨m2, _, h4⟩ := Frames.needs_dimCount e
      show (Frames.dimCount e k >>= fun r => _) = _
      rw [h4 k, h2]
      by_cases hk2 : m2 ≤ k
      · rw [if_pos hk2]
        show (Frames.dimsLoop _ k [(n, v)] [] >>= fun _ => _) = _
        rw [Frames.dimsLoop]
        simp only [Frames.dimsList, Dict.get_cons, if_pos, h]
        rfl
      · rw [if_neg hk2]; rfl
    · rw [if_neg hk]; rfl
  rw [h0]; rfl

/-- few calls are not enough -/
theorem deep_dims : ∀ (n k : Nat), k ≤ n → Frames.dims? (deepUnit n) k = .error .recursionError
  | 0, k, h => by
    obtain rfl : k = 0 := by omega
    rfl
  | n + 1, 0, _ => rfl
  | n + 1, k + 1, h => dims_only rfl rfl (deep_dims n k (by omega))

theorem deep_dims_ok : ∀ n, (deepUnit n).dims? = .ok (some [(⟨deepName 0, false, false, onlyName (deepName 0)⟩, 1)])
  | 0 => rfl
  | n + 1 => by
    have ih := deep_dims_ok n
    show (Verif.unitDims (fun m => Dict.get m (Ref.dimsList [(deepName n, deepUnit n)])) (deepDefn n) >>=
      fun d => .ok (some d)) = _
    have e1 : (deepDefn n).split true = .ok (none, deepDefn n) := rfl
    have e2 : (deepDefn n).dimCount = .ok [(deepName n, .int (0 + 1))] := rfl
    simp only [Verif.unitDims, e1, bind, Except.bind, e2, Verif.dimsLoop, Ref.dimsList, Dict.get_cons, if_pos, ih]
    rfl

end Verif
