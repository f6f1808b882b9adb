import Verif.Spec.Size
import Verif.Lemmas.ObjectsMore
/-!
# Lemmas for C74
-/

namespace Verif.Objects
open Spec.Objects

theorem substitute_length {subs : Dict Str Node} {L : Nat} (hL : 1 ≤ L)
    (h : ∀ (k : Str) (e : Node), Dict.get k subs = some e → e.str.length ≤ L) (d : Node) (hd : NoEmptyIdentifier d) :
    (d.substitute subs).str.length ≤ d.str.length * L := by
  have one : ∀ n : Nat, n ≤ n * L := fun n => Nat.le_mul_of_pos_right n hL
  induction d with
  | number v r => exact one _
  | unhandled r => exact one _
  | ident n =>
    have hn : 1 ≤ n.length := by
      cases n with
      | nil => exact absurd rfl hd
      | cons a l => simp
    unfold Node.substitute
    cases hg : Dict.get n subs with
    | none => exact one _
    | some e =>
      simp only [Node.str]
      calc e.str.length ≤ L := h n e hg
        _ = 1 * L := (Nat.one_mul L).symm
        _ ≤ n.length * L := Nat.mul_le_mul_right L hn
  | mul l r ihl ihr =>
    have hl := ihl hd.1
    have hr := ihr hd.2
    simp only [Node.substitute, Node.str, List.length_append, List.length_cons]
    rw [Nat.add_mul, Nat.add_mul]
    omega
  | div l r ihl ihr =>
    have hl := ihl hd.1
    have hr := ihr hd.2
    simp only [Node.substitute, Node.str, List.length_append, List.length_cons]
    rw [Nat.add_mul, Nat.add_mul]
    omega
  | raise l r ihl ihr =>
    have hl := ihl hd.1
    have hr := ihr hd.2
    simp only [Node.substitute, Node.str, List.length_append, List.length_cons]
    rw [Nat.add_mul, Nat.add_mul]
    omega
  | shift l r ihl ihr =>
    have hl := ihl hd.1
    have hr := ihr hd.2
    simp only [Node.substitute, Node.str, List.length_append, List.length_cons, List.length_nil]
    simp only [Nat.add_mul]
    omega
  | log fn t ih =>
    have ht := ih hd
    have hf := one fn.length
    simp only [Node.substitute, Node.str, List.length_append, List.length_cons, List.length_nil]
    simp only [Nat.add_mul]
    omega

theorem expandList_get {f : Nat → Py Ref} {B : Nat} (es : Dict Str Nat) :
    ∀ (refs : List (Str × Ref)) (subs : List (Str × Node)), followAll f es = .ok refs → Ref.expandList refs = .ok subs →
    (∀ e ∈ es, ∀ r x, f e.2 = .ok r → r.expand = .ok x → x.str.length ≤ B) →
    ∀ (k : Str) (x : Node), Dict.get k subs = some x → x.str.length ≤ B := by
  induction es with
  | nil =>
    intro refs subs h1 h2 _ k x hx
    simp only [followAll] at h1
    cases h1
    simp only [Ref.expandList] at h2
    cases h2
    cases hx
  | cons e es ih =>
    obtain ⟨k0, i⟩ := e
    intro refs subs h1 h2 hall k x hx
    simp only [followAll] at h1
    cases hr : f i with
    | error e => rw [hr] at h1; cases h1
    | ok r =>
      rw [hr] at h1
      simp only [bind, Except.bind] at h1
      cases hrs : followAll f es with
      | error e => rw [hrs] at h1; cases h1
      | ok rs =>
        rw [hrs] at h1
        cases h1
        simp only [Ref.expandList] at h2
        cases hy : r.expand with
        | error e => rw [hy] at h2; cases h2
        | ok y =>
          rw [hy] at h2
          simp only [bind, Except.bind] at h2
          cases hys : Ref.expandList rs with
          | error e => rw [hys] at h2; cases h2
          | ok ys =>
            rw [hys] at h2
            cases h2
            unfold Dict.get at hx
            by_cases hk : k0 = k
            · rw [if_pos hk] at hx
              cases hx
              exact hall (k0, i) (by simp) r _ hr hy
            · rw [if_neg hk] at hx
              exact ih rs ys hrs hys (fun e he => hall e (by simp [he])) k x hx

theorem expand_bound {limit : Nat} {p : Pool} (h : Created limit p) {M : Nat} (hM : 1 ≤ M)
    (hshort : ∀ c ∈ p.store.cells, Short M c) (i : Nat) :
    ∀ (n : Nat) (r : Ref) (x : Node), p.store.follow n i = .ok r → r.expand = .ok x → x.str.length ≤ M ^ (i + 1) := by
  induction i using Nat.strongRecOn with
  | ind i ih =>
    intro n r x hr hx
    have hpow : M ≤ M ^ (i + 1) := by
      rw [Nat.pow_succ]; exact Nat.le_mul_of_pos_left M (Nat.pow_pos hM)
    cases n with
    | zero => cases hr
    | succ n =>
      unfold Store.follow at hr
      cases hc : p.store.cells[i]? with
      | none => rw [hc] at hr; cases hr
      | some c =>
        rw [hc] at hr
        have hs := hshort c (List.mem_iff_getElem?.2 ⟨i, hc⟩)
        cases c with
        | basis b => cases hr; cases hx; exact Nat.le_trans hs hpow
        | pre q => cases hr; exact Nat.le_trans (hs x hx) hpow
        | date u rr => cases hr
        | unit names defn m =>
          simp only at hr
          cases hfl : followAll (p.store.follow n) ((p.store.maps[m]?).getD []) with
          | error e => rw [hfl] at hr; cases hr
          | ok refs =>
            rw [hfl] at hr
            cases hr
            simp only [Ref.expand] at hx
            cases hl : Ref.expandList refs with
            | error e => rw [hl] at hx; cases hx
            | ok subs =>
              rw [hl] at hx
              cases hx
              have hget := expandList_get (B := M ^ i) _ refs subs hfl hl (by
                intro e he r x hr hx
                have hlt := h.older i names defn m hc e he
                have := ih e.2 hlt n r x hr hx
                exact Nat.le_trans this (Nat.pow_le_pow_right hM hlt))
              have := substitute_length (Nat.pow_pos hM : 1 ≤ M ^ i) hget defn hs.2
              calc (defn.substitute subs).str.length ≤ defn.str.length * M ^ i := this
                _ ≤ M * M ^ i := Nat.mul_le_mul_right _ hs.1
                _ = M ^ (i + 1) := by rw [Nat.pow_succ, Nat.mul_comm]

/-! ## A chain of squares -/

/-- `x·x` -/
def square : Node := .mul (.ident c!"x") (.ident c!"x")

def metreNames : UnitReference := ⟨some ⟨c!"m", none⟩, [], [], []⟩
def metre : Basis := ⟨c!"m", false, false, metreNames⟩

/-- `n` units, each the square of the one before; the metre is the first -/
def chain : Nat → List Event
  | 0 => [.call (.newBasis metreNames false false)]
  | n + 1 => chain n ++ [.call (.newMap [(c!"x", n)]), .call (.newUnit none square n)]

def chainStore (n : Nat) : Store :=
  { cells := .basis metre :: (List.range n).map fun k => .unit none square k
    maps := (List.range n).map fun k => [(c!"x", k)], caches := [] }

/-- the unit as a value -/
def power : Nat → Ref
  | 0 => .basis metre
  | n + 1 => .unit none square [(c!"x", power n)]

theorem chainStore_follow (n limit k : Nat) (hk : k ≤ n) (hl : k < limit) : (chainStore n).follow limit k = .ok (power k) := by
  induction k generalizing limit with
  | zero =>
    cases limit with
    | zero => omega
    | succ l => rfl
  | succ k ih =>
    cases limit with
    | zero => omega
    | succ l =>
      unfold Store.follow
      have hc : (chainStore n).cells[k + 1]? = some (.unit none square k) := by
        simp [chainStore, List.getElem?_map, List.getElem?_range (by omega : k < n)]
      have hm : (chainStore n).maps[k]? = some [(c!"x", k)] := by
        simp [chainStore, List.getElem?_map, List.getElem?_range (by omega : k < n)]
      rw [hc]
      simp only [hm, Option.getD_some, followAll, ih l (by omega) (by omega)]
      rfl

theorem mkUnit_square (refs : List (Str × Ref)) : mkUnit none square refs = .ok (.unit none square refs) := rfl

theorem chain_run (limit n : Nat) (hl : n ≤ limit) : (Pool.run limit {} (chain n)).store = chainStore n := by
  induction n with
  | zero => rfl
  | succ n ih =>
    have h := ih (by omega)
    have hrun : Pool.run limit {} (chain (n + 1)) =
        ((Pool.run limit {} (chain n)).step limit (.call (.newMap [(c!"x", n)]))).step limit (.call (.newUnit none square n)) := by
      simp [chain, Pool.run]
    rw [hrun]
    generalize hp : Pool.run limit {} (chain n) = p at h
    obtain ⟨st, ts⟩ := p
    simp only at h
    subst h
    have hlen : (chainStore n).cells.length = n + 1 := by simp [chainStore]
    have hmlen : (chainStore n).maps.length = n := by simp [chainStore]
    have hm1 : (Call.newMap [(c!"x", n)]).mentions (chainStore n) = true := by
      simp [Call.mentions, hlen]
    have h1 : (({ store := chainStore n, threads := ts } : Pool).step limit (.call (.newMap [(c!"x", n)]))).store =
        { chainStore n with maps := (chainStore n).maps ++ [[(c!"x", n)]] } := by
      unfold Pool.step
      simp only [hm1, if_true, Call.isMethod, Bool.false_eq_true, if_false, Call.construct]
    generalize ({ store := chainStore n, threads := ts } : Pool).step limit (.call (.newMap [(c!"x", n)])) = q at h1
    obtain ⟨st, ts'⟩ := q
    simp only at h1
    subst h1
    have hm2 : (Call.newUnit none square n).mentions { chainStore n with maps := (chainStore n).maps ++ [[(c!"x", n)]] } = true := by
      simp [Call.mentions, hmlen]
    have hfol : ∀ l k, k ≤ n → k < l →
        ({ chainStore n with maps := (chainStore n).maps ++ [[(c!"x", n)]] } : Store).follow l k = .ok (power k) := by
      intro l k
      induction k generalizing l with
      | zero =>
        intro _ hl
        cases l with
        | zero => omega
        | succ l => rfl
      | succ k ih =>
        intro hk hl
        cases l with
        | zero => omega
        | succ l =>
          unfold Store.follow
          have hc : (chainStore n).cells[k + 1]? = some (.unit none square k) := by
            simp [chainStore, List.getElem?_map, List.getElem?_range (by omega : k < n)]
          have hm : ((chainStore n).maps ++ [[(c!"x", n)]])[k]? = some [(c!"x", k)] := by
            rw [List.getElem?_append_left (by omega)]
            simp [chainStore, List.getElem?_map, List.getElem?_range (by omega : k < n)]
          simp only [hc, hm, Option.getD_some, followAll, ih l (by omega) (by omega)]
          rfl
    have hmn : ((chainStore n).maps ++ [[(c!"x", n)]])[n]? = some [(c!"x", n)] := by
      rw [List.getElem?_append_right (by omega), hmlen]; simp
    unfold Pool.step
    simp only [hm2, if_true, Call.isMethod, Bool.false_eq_true, if_false, Call.construct, hmn, Option.getD_some, followAll,
      hfol limit n (Nat.le_refl n) (by omega)]
    show ({ chainStore n with maps := (chainStore n).maps ++ [[(c!"x", n)]], cells := (chainStore n).cells ++ [.unit none square n] } : Store) = _
    simp [chainStore, List.range_succ]

theorem power_expand (n : Nat) : ∃ x, (power n).expand = .ok x ∧ x.str.length = 2 * 2 ^ n - 1 := by
  induction n with
  | zero => exact ⟨_, rfl, rfl⟩
  | succ n ih =>
    obtain ⟨x, hx, hlen⟩ := ih
    refine ⟨.mul x x, ?_, ?_⟩
    · simp only [power, Ref.expand, Ref.expandList, hx]
      rfl
    · have : 1 ≤ 2 ^ n := Nat.pow_pos (by omega)
      simp only [Node.str, List.length_append, List.length_cons, hlen, Nat.pow_succ]
      omega

theorem written_chain (n : Nat) : written (chain n) = 7 * n + 2 := by
  induction n with
  | zero => rfl
  | succ n ih =>
    have : written (chain (n + 1)) = written (chain n) + 7 := by
      simp [written, chain, writtenIn, square, Node.str]
    rw [this, ih]; omega

theorem settled_chain (limit n : Nat) (evs : List Event) (h : ∀ m k i, Event.call (.setItem m k i) ∉ evs) :
    Settled limit (chain n ++ evs) := by
  intro before m k i after he
  exfalso
  have hmem : Event.call (.setItem m k i) ∈ chain n ++ evs := by rw [he]; simp
  rcases List.mem_append.1 hmem with hm | hm
  · clear he hmem
    induction n with
    | zero => simp [chain] at hm
    | succ n ih =>
      simp only [chain, List.mem_append] at hm
      rcases hm with hm | hm
      · exact ih hm
      · simp at hm
  · exact h m k i hm

/-- exponentials outgrow polynomials -/
theorem outgrow (c d : Nat) : ∃ n, c * (7 * n + 4) ^ d < 2 ^ n := by
  let j := c + 5 * d
  refine ⟨2 ^ (2 * j), ?_⟩
  have h1 : 7 * 2 ^ (2 * j) + 4 ≤ 2 ^ (2 * j + 4) := by
    have : 1 ≤ 2 ^ (2 * j) := Nat.pow_pos (by omega)
    rw [Nat.pow_add]; omega
  have h2 : (7 * 2 ^ (2 * j) + 4) ^ d ≤ 2 ^ ((2 * j + 4) * d) := by
    calc (7 * 2 ^ (2 * j) + 4) ^ d ≤ (2 ^ (2 * j + 4)) ^ d := Nat.pow_le_pow_left h1 d
      _ = 2 ^ ((2 * j + 4) * d) := (Nat.pow_mul 2 _ _).symm
  have h3 : c < 2 ^ c := Nat.lt_two_pow_self
  have h4 : c + (2 * j + 4) * d ≤ 2 ^ (2 * j) := by
    have hj : j + 1 ≤ 2 ^ j := Nat.lt_two_pow_self
    have hjj : (j + 1) * (j + 1) ≤ 2 ^ (2 * j) := by
      rw [Nat.two_mul, Nat.pow_add]; exact Nat.mul_le_mul hj hj
    have hd : 2 * d ≤ j := by show 2 * d ≤ c + 5 * d; omega
    have hc : c + 4 * d ≤ j := by show c + 4 * d ≤ c + 5 * d; omega
    have e1 : (2 * j + 4) * d = j * (2 * d) + 4 * d := by
      rw [Nat.add_mul, Nat.mul_comm 2 j, Nat.mul_assoc]
    have e2 : j * (2 * d) ≤ j * j := Nat.mul_le_mul_left j hd
    have e3 : (j + 1) * (j + 1) = j * j + 2 * j + 1 := by
      rw [Nat.add_mul, Nat.mul_add]; omega
    omega
  calc c * (7 * 2 ^ (2 * j) + 4) ^ d ≤ c * 2 ^ ((2 * j + 4) * d) := Nat.mul_le_mul_left c h2
    _ < 2 ^ c * 2 ^ ((2 * j + 4) * d) := Nat.mul_lt_mul_of_pos_right h3 (Nat.pow_pos (by omega))
    _ = 2 ^ (c + (2 * j + 4) * d) := (Nat.pow_add 2 _ _).symm
    _ ≤ 2 ^ 2 ^ (2 * j) := Nat.pow_le_pow_right (by omega) h4

end Verif.Objects
