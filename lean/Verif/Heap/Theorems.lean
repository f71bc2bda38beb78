import Verif.Heap.Model
import Mathlib.Algebra.BigOperators.Intervals
import Mathlib.Tactic.Ring

/-!
# C114: memory of element objects, of the state of the Average example and of the wrappers

Specification: `total` counts the entries of all blocks that have not been given back; `owned` what the existing objects
need.
-/

namespace Verif.Heap
open Finset

/-- Entries of all blocks. -/
def total (h : Heap) : ℕ := ∑ a ∈ range h.next, (h.size a).getD 0

/-- Entries an object needs. -/
def need : Option Obj → ℕ
  | some (.lagrange N _ _) => N + 3 * N
  | some (.legendre N _) => 2 * N
  | some (.node (some f)) => f.2
  | some (.matpt (some f)) => 3 * f.n + f.k * f.n
  | _ => 0

/-- Entries the existing objects need. -/
def owned (s : State) : ℕ := ∑ i ∈ range s.num, need (s.obj i)

/-- Entries an operation never gives back (for a destruction: of the object destroyed; for an initialisation: those of an earlier one of
the same object). -/
def lost (s : State) : Op → ℕ
  | .destroy i => match s.obj i with
    | some (.lagrange N _ _) => 3 * N
    | some (.legendre N _) => 2 * N
    | _ => 0
  | .matmul m k n => k * n + m * n
  | .invert n => n + n * n
  | .eig n => n + 1
  | .initNode i _ => need (s.obj i)
  | .initMatpt i _ _ => need (s.obj i)
  | _ => 0

/-- Entries a program never gives back. -/
def lostBy (s : State) : List Op → ℕ
  | [] => 0
  | o :: l => lost s o + match s.step o with
    | some s => lostBy s l
    | none => 0

/-- Destructions are those of existing objects, initialisations those of existing objects of their class, and no object is copied. -/
def Allowed (s : State) : Op → Prop
  | .destroy i => s.obj i ≠ none
  | .initNode i _ => ∃ f, s.obj i = some (.node f)
  | .initMatpt i _ _ => ∃ f, s.obj i = some (.matpt f)
  | .copy _ => False
  | _ => True

/-- All operations of a program are allowed. -/
def Disciplined (s : State) : List Op → Prop
  | [] => True
  | o :: l => Allowed s o ∧ ∀ s', s.step o = some s' → Disciplined s' l

/-- Blocks (address, entries) the destructor gives back. -/
def owns : Obj → List (ℕ × ℕ)
  | .lagrange N w _ => [(w, N)]
  | .node (some f) => [f]
  | .matpt (some f) => [(f.id, f.n), (f.coords, f.k * f.n), (f.field, f.n), (f.vol, f.n)]
  | _ => []

/-- Reachable states without copies. -/
structure Inv (s : State) : Prop where
  fresh : ∀ a, s.heap.next ≤ a → s.heap.size a = none
  objs : ∀ i, s.num ≤ i → s.obj i = none
  live : ∀ i o, s.obj i = some o → ∀ b ∈ owns o, s.heap.size b.1 = some b.2
  apart : ∀ i j o o', s.obj i = some o → s.obj j = some o' → ∀ b ∈ owns o, ∀ b' ∈ owns o', b.1 = b'.1 → i = j
  nodup : ∀ i o, s.obj i = some o → ((owns o).map Prod.fst).Nodup

theorem total_new (h : Heap) (n : ℕ) : total (h.new n).2 = total h + n := by
  unfold total Heap.new
  dsimp only
  rw [sum_range_succ, store_same]
  congr 1
  exact sum_congr rfl fun a ha => by rw [store_ne _ _ (by have := mem_range.1 ha; omega)]

theorem delete_spec {h : Heap} (hf : ∀ a, h.next ≤ a → h.size a = none) {p n : ℕ} (hp : h.size p = some n) :
    ∃ h', h.delete p = some h' ∧ h'.next = h.next ∧ h'.size = store h.size p none ∧ total h' + n = total h := by
  refine ⟨⟨h.next, store h.size p none⟩, by simp [Heap.delete, hp], rfl, rfl, ?_⟩
  have hlt : p < h.next := by
    by_contra hc
    rw [hf p (by omega)] at hp
    exact absurd hp (by simp)
  unfold total
  dsimp only
  have hm : p ∈ range h.next := mem_range.2 hlt
  rw [← add_sum_erase _ _ hm, ← add_sum_erase (a := p) (s := range h.next) (f := fun a => (h.size a).getD 0) hm, store_same, hp]
  rw [sum_congr rfl (g := fun a => (h.size a).getD 0) fun a ha => by rw [store_ne _ _ (ne_of_mem_erase ha)]]
  simp only [Option.getD_none, Option.getD_some]
  omega

theorem new_size (h : Heap) (n a : ℕ) : (h.new n).2.size a = if a = h.next then some n else h.size a := rfl

theorem new_next (h : Heap) (n : ℕ) : (h.new n).2.next = h.next + 1 := rfl

/-- What the wrappers do to the heap. -/
structure Keeps (h h' : Heap) (k : ℕ) : Prop where
  total : total h' = total h + k
  fresh : ∀ a, h'.next ≤ a → h'.size a = none
  same : ∀ a n, h.size a = some n → h'.size a = some n

theorem lt_of_some {h : Heap} (hf : ∀ a, h.next ≤ a → h.size a = none) {a n : ℕ} (ha : h.size a = some n) : a < h.next := by
  by_contra hc
  rw [hf a (by omega)] at ha
  exact absurd ha (by simp)

theorem fresh_new {h : Heap} (hf : ∀ a, h.next ≤ a → h.size a = none) (n : ℕ) : ∀ a, (h.new n).2.next ≤ a → (h.new n).2.size a = none := by
  intro a ha
  rw [new_next] at ha
  rw [new_size, if_neg (by omega)]
  exact hf a (by omega)

theorem new_keeps {h : Heap} (hf : ∀ a, h.next ≤ a → h.size a = none) (n : ℕ) : Keeps h (h.new n).2 n :=
  ⟨total_new h n, fresh_new hf n, fun a k ha => by
    rw [new_size, if_neg (by have := lt_of_some hf ha; omega)]; exact ha⟩

/-- Any allocations `ks` after the first one of `n` entries, which is given back. -/
theorem Keeps.delete {h h' : Heap} {k p n : ℕ} (hf : ∀ a, h.next ≤ a → h.size a = none) (hk : Keeps h h' (k + n)) (hp : h'.size p = some n)
    (hp0 : h.next ≤ p) : ∃ h'', h'.delete p = some h'' ∧ Keeps h h'' k := by
  obtain ⟨h'', e, e1, e2, e3⟩ := delete_spec hk.fresh hp
  refine ⟨h'', e, ?_, ?_, ?_⟩
  · have := hk.total; omega
  · intro a ha
    rw [e1] at ha
    rw [e2]
    by_cases hap : a = p
    · rw [hap, store_same]
    · rw [store_ne _ _ hap]; exact hk.fresh a ha
  · intro a m ha
    rw [e2, store_ne _ _ (by have := lt_of_some hf ha; omega)]
    exact hk.same a m ha

theorem Keeps.trans {h h' h'' : Heap} {k l : ℕ} (h1 : Keeps h h' k) (h2 : Keeps h' h'' l) : Keeps h h'' (k + l) :=
  ⟨by rw [h2.total, h1.total]; ring, h2.fresh, fun a n ha => h2.same a n (h1.same a n ha)⟩

theorem matvec_keeps {h : Heap} (hf : ∀ a, h.next ≤ a → h.size a = none) (m n : ℕ) :
    ∃ h', matvec h m n = some h' ∧ Keeps h h' 0 :=
  Keeps.delete hf (by rw [Nat.zero_add]; exact new_keeps hf _) (by rw [new_size]; exact if_pos rfl) le_rfl

theorem matmul_keeps {h : Heap} (hf : ∀ a, h.next ≤ a → h.size a = none) (m k n : ℕ) :
    ∃ h', matmul h m k n = some h' ∧ Keeps h h' (k * n + m * n) := by
  have k1 := new_keeps hf (m * k)
  have k2 := new_keeps k1.fresh (k * n)
  have k3 := new_keeps k2.fresh (m * n)
  refine Keeps.delete hf (n := m * k) ?_ (k3.same _ _ (k2.same _ _ (by rw [new_size]; exact if_pos rfl))) le_rfl
  rw [show k * n + m * n + m * k = m * k + k * n + m * n by ring]
  exact (k1.trans k2).trans k3

theorem invert_keeps {h : Heap} (hf : ∀ a, h.next ≤ a → h.size a = none) (n : ℕ) :
    ∃ h', invert h n = some h' ∧ Keeps h h' (n + n * n) := by
  have k1 := new_keeps hf (n * n)
  have k2 := new_keeps k1.fresh n
  have k3 := new_keeps k2.fresh (n * n)
  refine Keeps.delete hf (n := n * n) ?_ (k3.same _ _ (k2.same _ _ (by rw [new_size]; exact if_pos rfl))) le_rfl
  rw [show n + n * n + n * n = n * n + n + n * n by ring]
  exact (k1.trans k2).trans k3

theorem eig_keeps {h : Heap} (hf : ∀ a, h.next ≤ a → h.size a = none) (n : ℕ) :
    ∃ h', eig h n = some h' ∧ Keeps h h' (n + 1) := by
  have k1 := new_keeps hf (n + 1)
  have k2 := new_keeps k1.fresh (2 * (n + 1) - 2)
  exact Keeps.delete hf (n := 2 * (n + 1) - 2) (k1.trans k2) (by rw [new_size]; exact if_pos rfl) (by simp only [Heap.new]; omega)

theorem vtk_keeps {h : Heap} (hf : ∀ a, h.next ≤ a → h.size a = none) (n : ℕ) : ∃ h', vtk h n = some h' ∧ Keeps h h' 0 :=
  Keeps.delete hf (by rw [Nat.zero_add]; exact new_keeps hf _) (by rw [new_size]; exact if_pos rfl) le_rfl

theorem inv_heap {s : State} (h : Inv s) {h' : Heap} {k : ℕ} (hk : Keeps s.heap h' k) : Inv { s with heap := h' } :=
  ⟨hk.fresh, h.objs, fun i o hi b hb => hk.same _ _ (h.live i o hi b hb), h.apart, h.nodup⟩

theorem owned_push (s : State) (r : Obj × Heap) : owned (s.push r) = owned s + need (some r.1) := by
  unfold owned State.push
  dsimp only
  rw [sum_range_succ, store_same]
  congr 1
  exact sum_congr rfl fun a ha => by rw [store_ne _ _ (by have := mem_range.1 ha; omega)]

/-- Object `i` is replaced. -/
theorem owned_store {s s' : State} {i : ℕ} (hi : i < s.num) (o : Option Obj) (h1 : s'.num = s.num) (h2 : s'.obj = store s.obj i o) :
    owned s' + need (s.obj i) = owned s + need o := by
  unfold owned
  rw [h1, h2]
  have hm : i ∈ range s.num := mem_range.2 hi
  rw [← add_sum_erase _ _ hm, ← add_sum_erase (a := i) (s := range s.num) (f := fun a => need (s.obj a)) hm, store_same]
  rw [sum_congr rfl (g := fun a => need (s.obj a)) fun a ha => by rw [store_ne _ _ (ne_of_mem_erase ha)]]
  omega

/-- Object `i` is new or replaced, its blocks are new. -/
theorem inv_store {s : State} (h : Inv s) {h' : Heap} {k i n : ℕ} (hk : Keeps s.heap h' k) (hi : i < n) (hn : s.num ≤ n) {o : Obj}
    (h1 : ∀ b ∈ owns o, h'.size b.1 = some b.2 ∧ s.heap.next ≤ b.1) (h2 : ((owns o).map Prod.fst).Nodup) :
    Inv ⟨h', n, store s.obj i (some o)⟩ := by
  have old : ∀ j p, s.obj j = some p → ∀ b ∈ owns p, b.1 < s.heap.next := fun j p hj b hb => lt_of_some h.fresh (h.live j p hj b hb)
  refine ⟨hk.fresh, fun j hj => ?_, fun j p hj b hb => ?_, fun j j' p p' hj hj' b hb b' hb' e => ?_, fun j p hj => ?_⟩
  · dsimp only at hj ⊢
    rw [store_ne _ _ (by omega)]
    exact h.objs j (by omega)
  · dsimp only at hj ⊢
    by_cases hji : j = i
    · rw [hji, store_same] at hj
      obtain rfl := Option.some.inj hj
      exact (h1 b hb).1
    · rw [store_ne _ _ hji] at hj
      exact hk.same _ _ (h.live j p hj b hb)
  · dsimp only at hj hj'
    by_cases hji : j = i <;> by_cases hji' : j' = i
    · rw [hji, hji']
    · rw [hji, store_same] at hj
      rw [store_ne _ _ hji'] at hj'
      obtain rfl := Option.some.inj hj
      have := (h1 b hb).2; have := old j' p' hj' b' hb'; omega
    · rw [hji', store_same] at hj'
      rw [store_ne _ _ hji] at hj
      obtain rfl := Option.some.inj hj'
      have := (h1 b' hb').2; have := old j p hj b hb; omega
    · rw [store_ne _ _ hji] at hj
      rw [store_ne _ _ hji'] at hj'
      exact h.apart j j' p p' hj hj' b hb b' hb' e
  · dsimp only at hj
    by_cases hji : j = i
    · rw [hji, store_same] at hj
      obtain rfl := Option.some.inj hj
      exact h2
    · rw [store_ne _ _ hji] at hj
      exact h.nodup j p hj

/-- Several blocks are given back. -/
def deleteAll : List (ℕ × ℕ) → Heap → Option Heap
  | [], h => some h
  | b :: l, h => (h.delete b.1).bind (deleteAll l)

theorem destroy_eq (o : Obj) (h : Heap) : o.destroy h = deleteAll (owns o) h := by
  have e : ∀ x : Option Heap, (x.bind fun h => some h) = x := fun x => by cases x <;> rfl
  cases o with
  | lagrange N w C => exact (e _).symm
  | legendre N C => rfl
  | node f => cases f with
    | none => rfl
    | some f => exact (e _).symm
  | matpt f => cases f with
    | none => rfl
    | some f =>
      simp only [Obj.destroy, owns, deleteAll, e, Option.bind_eq_bind]

theorem deleteAll_spec (l : List (ℕ × ℕ)) {h : Heap} (hf : ∀ a, h.next ≤ a → h.size a = none) (hl : ∀ b ∈ l, h.size b.1 = some b.2)
    (hn : (l.map Prod.fst).Nodup) : ∃ h', deleteAll l h = some h' ∧ (∀ a, h'.next ≤ a → h'.size a = none) ∧
      (∀ a, a ∉ l.map Prod.fst → h'.size a = h.size a) ∧ total h' + (l.map Prod.snd).sum = total h := by
  induction l generalizing h with
  | nil => exact ⟨h, rfl, hf, fun _ _ => rfl, rfl⟩
  | cons b l ih =>
    obtain ⟨h1, e1, n1, s1, t1⟩ := delete_spec hf (hl b (by simp))
    simp only [List.map_cons, List.nodup_cons] at hn
    have hf1 : ∀ a, h1.next ≤ a → h1.size a = none := by
      intro a ha
      rw [s1]
      by_cases hab : a = b.1
      · rw [hab, store_same]
      · rw [store_ne _ _ hab]; exact hf a (by omega)
    obtain ⟨h2, e2, f2, s2, t2⟩ := ih hf1 (fun c hc => by
      rw [s1, store_ne _ _ (fun e => hn.1 (by rw [← e]; exact List.mem_map_of_mem hc))]
      exact hl c (by simp [hc])) hn.2
    refine ⟨h2, by rw [deleteAll, e1]; exact e2, f2, fun a ha => ?_, ?_⟩
    · simp only [List.map_cons, List.mem_cons, not_or] at ha
      rw [s2 a ha.2, s1, store_ne _ _ ha.1]
    · rw [List.map_cons, List.sum_cons]
      omega

/-- What a destroyed object keeps. -/
theorem need_eq {s : State} {i : ℕ} {o : Obj} (hi : s.obj i = some o) :
    need (s.obj i) = ((owns o).map Prod.snd).sum + lost s (.destroy i) := by
  simp only [lost, hi]
  cases o with
  | lagrange N w C => simp [need, owns]
  | legendre N C => simp [need, owns]
  | node f => cases f <;> simp [need, owns]
  | matpt f => cases f with
    | none => simp [need, owns]
    | some f => simp only [need, owns, List.map_cons, List.map_nil, List.sum_cons, List.sum_nil]; ring

/-- One operation of a disciplined program. -/
theorem step_spec {s : State} (h : Inv s) (o : Op) (ho : Allowed s o) :
    ∃ s', s.step o = some s' ∧ Inv s' ∧ total s'.heap + owned s = total s.heap + owned s' + lost s o := by
  have wrap : ∀ {h' : Heap} {k : ℕ}, Keeps s.heap h' k → Inv { s with heap := h' } ∧
      total h' + owned s = total s.heap + owned { s with heap := h' } + k := fun {h' k} hk => ⟨inv_heap h hk, by
    have := hk.total; have e : owned { s with heap := h' } = owned s := rfl; rw [e]; omega⟩
  have idk : Keeps s.heap s.heap 0 := ⟨rfl, h.fresh, fun _ _ ha => ha⟩
  have lt : ∀ i o, s.obj i = some o → i < s.num := by
    intro i o hi
    by_contra hc
    rw [h.objs i (by omega)] at hi
    exact absurd hi (by simp)
  cases o with
  | lagrange N =>
    have k1 := new_keeps h.fresh N
    have k2 := new_keeps k1.fresh (3 * N)
    have k := k1.trans k2
    refine ⟨_, rfl, inv_store h k (Nat.lt_succ_self _) (Nat.le_succ _) ?_ (by simp [newLagrange, owns]), ?_⟩
    · intro b hb
      simp only [newLagrange, owns, List.mem_singleton] at hb
      subst hb
      exact ⟨k2.same _ _ (by rw [new_size]; exact if_pos rfl), le_rfl⟩
    · rw [owned_push]
      have := k.total
      simp only [State.push, newLagrange, need, lost] at this ⊢
      omega
  | legendre N =>
    have k := new_keeps h.fresh (2 * N)
    refine ⟨_, rfl, inv_store h k (Nat.lt_succ_self _) (Nat.le_succ _) (by simp [newLegendre, owns]) (by simp [newLegendre, owns]), ?_⟩
    rw [owned_push]
    have := k.total
    simp only [State.push, newLegendre, need, lost] at this ⊢
    omega
  | copy i => exact ho.elim
  | destroy i =>
    obtain ⟨o, hi⟩ := Option.ne_none_iff_exists'.1 ho
    obtain ⟨h', e, f, same, t⟩ := deleteAll_spec (owns o) h.fresh (h.live i o hi) (h.nodup i o hi)
    rw [← destroy_eq] at e
    have keep : ∀ j p, (store s.obj i none) j = some p → j ≠ i ∧ s.obj j = some p := by
      intro j p hj
      by_cases hji : j = i
      · rw [hji, store_same] at hj; exact absurd hj (by simp)
      · rw [store_ne _ _ hji] at hj; exact ⟨hji, hj⟩
    refine ⟨⟨h', s.num, store s.obj i none⟩, by simp [State.step, hi, e], ⟨f, fun j hj => ?_, fun j p hj b hb => ?_,
      fun j j' p p' hj hj' => h.apart j j' p p' (keep j p hj).2 (keep j' p' hj').2, fun j p hj => h.nodup j p (keep j p hj).2⟩, ?_⟩
    · dsimp only at hj ⊢
      have := lt i o hi
      rw [store_ne _ _ (by omega)]
      exact h.objs j hj
    · obtain ⟨hji, hj⟩ := keep j p hj
      dsimp only
      rw [same b.1 fun hm => ?_]
      · exact h.live j p hj b hb
      · obtain ⟨b', hb', e'⟩ := List.mem_map.1 hm
        exact hji (h.apart j i p o hj hi b hb b' hb' e'.symm)
    · have := owned_store (s' := ⟨h', s.num, store s.obj i none⟩) (lt i o hi) none rfl rfl
      have := need_eq hi
      have hn : need none = 0 := rfl
      dsimp only
      omega
  | matvec m n =>
    obtain ⟨h', e, k⟩ := matvec_keeps h.fresh m n
    exact ⟨{ s with heap := h' }, by simp [State.step, e], wrap k⟩
  | matmul m k n =>
    obtain ⟨h', e, k⟩ := matmul_keeps h.fresh m k n
    exact ⟨{ s with heap := h' }, by simp [State.step, e], wrap k⟩
  | invert n =>
    obtain ⟨h', e, k⟩ := invert_keeps h.fresh n
    exact ⟨{ s with heap := h' }, by simp [State.step, e], wrap k⟩
  | eig n =>
    obtain ⟨h', e, k⟩ := eig_keeps h.fresh n
    exact ⟨{ s with heap := h' }, by simp [State.step, e], wrap k⟩
  | vtk n =>
    obtain ⟨h', e, k⟩ := vtk_keeps h.fresh n
    exact ⟨{ s with heap := h' }, by simp [State.step, e], wrap k⟩
  | node =>
    refine ⟨_, rfl, inv_store h idk (Nat.lt_succ_self _) (Nat.le_succ _) (by simp [owns]) (by simp [owns]), ?_⟩
    rw [owned_push]
    simp [State.push, need, lost]
  | matpt =>
    refine ⟨_, rfl, inv_store h idk (Nat.lt_succ_self _) (Nat.le_succ _) (by simp [owns]) (by simp [owns]), ?_⟩
    rw [owned_push]
    simp [State.push, need, lost]
  | initNode i n =>
    obtain ⟨f, hi⟩ := ho
    have k := new_keeps h.fresh n
    refine ⟨s.put i (initNode s.heap n), by simp [State.step, hi], inv_store h k (lt i _ hi) le_rfl ?_ (by simp [initNode, owns]), ?_⟩
    · intro b hb
      simp only [initNode, owns, List.mem_singleton] at hb
      subst hb
      exact ⟨by dsimp only; rw [new_size]; exact if_pos rfl, le_rfl⟩
    · have := owned_store (s' := s.put i (initNode s.heap n)) (lt i _ hi) _ rfl rfl
      have := k.total
      simp only [State.put, initNode, need, lost] at *
      omega
  | initMatpt i n k =>
    obtain ⟨f, hi⟩ := ho
    have k1 := new_keeps h.fresh n
    have k2 := new_keeps k1.fresh (k * n)
    have k3 := new_keeps k2.fresh n
    have k4 := new_keeps k3.fresh n
    have kk := ((k1.trans k2).trans k3).trans k4
    refine ⟨s.put i (initMatpt s.heap n k), by simp [State.step, hi], inv_store h kk (lt i _ hi) le_rfl ?_ ?_, ?_⟩
    · intro b hb
      simp only [initMatpt, owns, List.mem_cons, List.not_mem_nil, or_false] at hb
      rcases hb with rfl | rfl | rfl | rfl
      · exact ⟨k4.same _ _ (k3.same _ _ (k2.same _ _ (by rw [new_size]; exact if_pos rfl))), le_rfl⟩
      · exact ⟨k4.same _ _ (k3.same _ _ (by rw [new_size]; exact if_pos rfl)), by simp only [Heap.new]; omega⟩
      · exact ⟨k4.same _ _ (by rw [new_size]; exact if_pos rfl), by simp only [Heap.new]; omega⟩
      · exact ⟨by dsimp only; rw [new_size]; exact if_pos rfl, by simp only [Heap.new]; omega⟩
    · simp [initMatpt, owns, Heap.new]
      omega
    · have := owned_store (s' := s.put i (initMatpt s.heap n k)) (lt i _ hi) _ rfl rfl
      have := kk.total
      simp only [State.put, initMatpt, need, lost] at *
      omega

theorem run_spec (l : List Op) {s : State} (h : Inv s) (hd : Disciplined s l) : ∃ s', s.run l = some s' ∧ Inv s' ∧
    total s'.heap + owned s = total s.heap + owned s' + lostBy s l := by
  induction l generalizing s with
  | nil => exact ⟨s, rfl, h, rfl⟩
  | cons o l ih =>
    obtain ⟨s1, e1, i1, t1⟩ := step_spec h o hd.1
    obtain ⟨s2, e2, i2, t2⟩ := ih i1 (hd.2 s1 e1)
    refine ⟨s2, by rw [State.run, e1]; exact e2, i2, ?_⟩
    rw [lostBy, e1]
    dsimp only
    omega

theorem inv_init : Inv State.init :=
  ⟨fun _ _ => rfl, fun _ _ => rfl, fun _ _ h => absurd h (by simp [State.init]), fun _ _ _ _ h => absurd h (by simp [State.init]),
    fun _ _ h => absurd h (by simp [State.init])⟩

/-- **C114.**  In every program that constructs elements and the state objects of the Average example, destroys each at most once, calls the
matrix wrappers and the VTK routines and copies no object, no block is given back twice; but the blocks still in use at any time are those
of the existing objects and, for ever, the work array of every destroyed element, what a state object held before it was initialised
again, two of the three blocks of every call of `matmul` and `invert`, and one of two of every call of the eigensolver wrapper. -/
theorem C114_memory_partial (l : List Op) (hd : Disciplined State.init l) :
    ∃ s, State.init.run l = some s ∧ total s.heap = owned s + lostBy State.init l := by
  obtain ⟨s, e, -, t⟩ := run_spec l inv_init hd
  refine ⟨s, e, ?_⟩
  simpa [owned, total, State.init] using t

/-- `k` elements are constructed and destroyed one after the other. -/
def rounds (N k : ℕ) : List Op := (List.range k).flatMap fun i => [.lagrange N, .destroy i]

theorem run_append (s : State) (l l' : List Op) : s.run (l ++ l') = (s.run l).bind fun s => s.run l' := by
  induction l generalizing s with
  | nil => rfl
  | cons o l ih =>
    rw [List.cons_append, State.run, State.run]
    cases h : s.step o with
    | none => rfl
    | some s1 => exact ih s1

theorem destroy_obj {s s' : State} {i : ℕ} (h : s.step (.destroy i) = some s') : s'.num = s.num ∧ s'.obj = store s.obj i none := by
  simp only [State.step] at h
  obtain ⟨o, -, h⟩ := Option.bind_eq_some_iff.1 h
  obtain ⟨h', -, h⟩ := Option.bind_eq_some_iff.1 h
  obtain rfl := Option.some.inj h
  exact ⟨rfl, rfl⟩

/-- **The memory of destroyed elements is not given back**: a program that constructs and destroys one element after the other uses,
with no element left, `3 N` entries more after each. -/
theorem C114_leak_negation (N k : ℕ) : ∃ s, State.init.run (rounds N k) = some s ∧ owned s = 0 ∧ total s.heap = k * (3 * N) := by
  have key : ∃ s, State.init.run (rounds N k) = some s ∧ Inv s ∧ s.num = k ∧ (∀ i, s.obj i = none) ∧ total s.heap = k * (3 * N) := by
    induction k with
    | zero => exact ⟨State.init, rfl, inv_init, rfl, fun _ => rfl, by simp [total, State.init]⟩
    | succ k ih =>
      obtain ⟨s, e, i, hn, ho, t⟩ := ih
      obtain ⟨s1, e1, i1, t1⟩ := step_spec i (.lagrange N) trivial
      have e1' := e1
      simp only [State.step, Option.some.injEq] at e1
      subst e1
      have hk : (s.push (newLagrange s.heap N)).obj k = some (newLagrange s.heap N).1 := by
        simp only [State.push, hn, store_same]
      obtain ⟨s2, e2, i2, t2⟩ := step_spec i1 (.destroy k) (show _ ≠ none by rw [hk]; simp)
      obtain ⟨hn2, ho2⟩ := destroy_obj e2
      have hobj : ∀ i, s2.obj i = none := by
        intro i
        rw [ho2]
        simp only [State.push, hn]
        by_cases hik : i = k
        · rw [hik, store_same]
        · rw [store_ne _ _ hik, store_ne _ _ hik]; exact ho i
      refine ⟨s2, ?_, i2, by rw [hn2]; simp [State.push, hn], hobj, ?_⟩
      · have hr : rounds N (k + 1) = rounds N k ++ [.lagrange N, .destroy k] := by
          simp [rounds, List.range_succ]
        rw [hr, run_append, e]
        simp [State.run, e1', e2]
      · have w : ∀ s : State, (∀ i, s.obj i = none) → owned s = 0 := fun s h => sum_eq_zero fun i _ => by rw [h]; rfl
        rw [owned_push, w s ho] at t1
        have hl : lost (s.push (newLagrange s.heap N)) (.destroy k) = 3 * N := by
          simp only [lost]
          rw [hk]
          rfl
        rw [w s2 hobj, owned_push, w s ho, hl] at t2
        simp only [lost, newLagrange, need] at t1 t2
        have : (k + 1) * (3 * N) = k * (3 * N) + 3 * N := by ring
        omega
  obtain ⟨s, e, -, -, ho, t⟩ := key
  exact ⟨s, e, sum_eq_zero fun i _ => by rw [ho]; rfl, t⟩

/-- **Copies are not safe**: destroying a Lagrange element and a copy of it gives the weights back twice. -/
theorem C114_copy_negation (N : ℕ) : State.init.run [.lagrange N, .copy 0, .destroy 0, .destroy 1] = none := by
  simp [State.run, State.step, State.init, State.push, newLagrange, Obj.destroy, Heap.delete, Heap.new, store]

/-- The state of the Average example (two objects, each initialised once) is given back completely. -/
theorem C114_average (n m k : ℕ) : ∃ s, State.init.run [.node, .matpt, .initNode 0 n, .initMatpt 1 m k, .destroy 1, .destroy 0] = some s ∧
    total s.heap = 0 := by
  obtain ⟨s, e, t⟩ := C114_memory_partial [.node, .matpt, .initNode 0 n, .initMatpt 1 m k, .destroy 1, .destroy 0] (by
    simp [Disciplined, Allowed, State.step, State.init, State.push, State.put, initNode, initMatpt, Obj.destroy, Heap.delete, Heap.new, store])
  refine ⟨s, e, t.trans ?_⟩
  have e' : State.init.run [.node, .matpt, .initNode 0 n, .initMatpt 1 m k, .destroy 1, .destroy 0] = some s := e
  simp [State.run, State.step, State.init, State.push, State.put, initNode, initMatpt, Obj.destroy, Heap.delete, Heap.new, store] at e'
  subst e'
  simp [owned, need, lostBy, lost, State.step, State.init, State.push, State.put, initNode, initMatpt, Obj.destroy, Heap.delete, Heap.new, store,
    sum_range_succ]

/-- Initialised twice, an object keeps its first block for ever. -/
theorem C114_init_negation (n m : ℕ) : ∃ s, State.init.run [.node, .initNode 0 n, .initNode 0 m, .destroy 0] = some s ∧
    owned s = 0 ∧ total s.heap = n := by
  refine ⟨⟨⟨2, fun a => if a = 0 then some n else none⟩, 1, fun _ => none⟩, ?_, by simp [owned, need], by simp [total, sum_range_succ]⟩
  simp only [State.run, State.step, State.init, State.push, State.put, initNode, Obj.destroy, Heap.delete, Heap.new]
  simp [store]
  constructor <;> funext a <;> simp only [store] <;> split_ifs <;> first | rfl | omega

/-- The hypothesis of `C114_memory_partial`, with objects that exist at the same time and are destroyed in another order. -/
example : Disciplined State.init [.lagrange 3, .legendre 4, .matmul 2 3 4, .destroy 0, .eig 5, .vtk 27, .lagrange 2, .destroy 2, .destroy 1] := by
  simp [Disciplined, Allowed, State.step, State.init, State.push, newLagrange, newLegendre, matmul, eig, vtk, Obj.destroy, Heap.delete, Heap.new, store]

end Verif.Heap
