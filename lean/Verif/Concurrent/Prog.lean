import Verif.Loop
import Mathlib.Algebra.Field.Basic

/-!
# Threads that share element objects

`LagrangeElement` and `LegendreElement` (elements/lagrange_element.h:5-25, elements/legendre_element.h:5-18) own two arrays that their
evaluation methods write: the digits `ijk` and the work array `C`.  A thread is a program that reads and writes entries of these arrays
of any objects; everything else it uses (orders, vertices, weights, coefficients, points) is not written by the methods and is a parameter.
An execution interleaves single reads and writes of the threads in any order (sequential consistency; by `noRace` below the programs
of the theorems have no data races, for which C++ guarantees sequential consistency).
-/

namespace Verif.Concurrent

/-- The arrays `ijk` and `C` of all objects: object, index. -/
structure Mem (K : Type) where
  ijk : ℕ → ℕ → ℕ
  C : ℕ → ℕ → K

/-- A program that returns an `R`; each constructor but `ret` is one access to an entry of an array of an object. -/
inductive Prog (K : Type) (R : Type) where
  | ret (r : R)
  | readI (o i : ℕ) (k : ℕ → Prog K R)
  | writeI (o i v : ℕ) (k : Prog K R)
  | readC (o i : ℕ) (k : K → Prog K R)
  | writeC (o i : ℕ) (v : K) (k : Prog K R)

namespace Prog
variable {K R S : Type}

/-- `p; f` -/
def bind : Prog K R → (R → Prog K S) → Prog K S
  | ret r, f => f r
  | readI o i k, f => readI o i fun v => bind (k v) f
  | writeI o i v k, f => writeI o i v (bind k f)
  | readC o i k, f => readC o i fun v => bind (k v) f
  | writeC o i v k, f => writeC o i v (bind k f)

instance : Monad (Prog K) where
  pure := ret
  bind := bind

/-- `for (i = 0; i < n; i++) s = b(i, s)` -/
def loopP : (n : ℕ) → (b : ℕ → R → Prog K R) → R → Prog K R
  | 0, _, s => ret s
  | n + 1, b, s => bind (loopP n b s) (b n)

/-- Store into `ijk` of object `o`. -/
def _root_.Verif.Concurrent.Mem.setI (m : Mem K) (o i v : ℕ) : Mem K := { m with ijk := store2 m.ijk o i v }
/-- Store into `C` of object `o`. -/
def _root_.Verif.Concurrent.Mem.setC (m : Mem K) (o i : ℕ) (v : K) : Mem K := { m with C := store2 m.C o i v }

/-- The next access of a program. -/
def step : Prog K R → Mem K → Prog K R × Mem K
  | ret r, m => (ret r, m)
  | readI o i k, m => (k (m.ijk o i), m)
  | writeI o i v k, m => (k, m.setI o i v)
  | readC o i k, m => (k (m.C o i), m)
  | writeC o i v k, m => (k, m.setC o i v)

/-- The program running alone: what it returns and the memory it leaves. -/
def run : Prog K R → Mem K → R × Mem K
  | ret r, m => (r, m)
  | readI o i k, m => run (k (m.ijk o i)) m
  | writeI o i v k, m => run k (m.setI o i v)
  | readC o i k, m => run (k (m.C o i)) m
  | writeC o i v k, m => run k (m.setC o i v)

/-- Number of accesses of the program running alone. -/
def len : Prog K R → Mem K → ℕ
  | ret _, _ => 0
  | readI o i k, m => len (k (m.ijk o i)) m + 1
  | writeI o i v k, m => len k (m.setI o i v) + 1
  | readC o i k, m => len (k (m.C o i)) m + 1
  | writeC o i v k, m => len k (m.setC o i v) + 1

/-- Entries of arrays: `C` (`true`) or `ijk` (`false`), object, index. -/
abbrev Addr := Bool × ℕ × ℕ

/-- The program accesses only entries in `A`, whatever it reads. -/
def Within (A : Addr → Prop) : Prog K R → Prop
  | ret _ => True
  | readI o i k => A (false, o, i) ∧ ∀ v, Within A (k v)
  | writeI o i _ k => A (false, o, i) ∧ Within A k
  | readC o i k => A (true, o, i) ∧ ∀ v, Within A (k v)
  | writeC o i _ k => A (true, o, i) ∧ Within A k

/-- The entry accessed next, and whether it is written. -/
def next : Prog K R → Option (Addr × Bool)
  | ret _ => none
  | readI o i _ => some ((false, o, i), false)
  | writeI o i _ _ => some ((false, o, i), true)
  | readC o i _ => some ((true, o, i), false)
  | writeC o i _ _ => some ((true, o, i), true)

end Prog

/-- Threads and memory. -/
structure State (K R : Type) where
  thread : ℕ → Prog K R
  mem : Mem K

/-- Thread `t` makes its next access. -/
def State.step {K R : Type} (s : State K R) (t : ℕ) : State K R :=
  let r := (s.thread t).step s.mem
  ⟨store s.thread t r.1, r.2⟩

/-- The threads make accesses in the order of the schedule. -/
def exec {K R : Type} : List ℕ → State K R → State K R
  | [], s => s
  | t :: l, s => exec l (s.step t)

open Prog
variable {K R S : Type}

/-! ### Laws -/

@[simp] theorem run_ret (r : R) (m : Mem K) : (Prog.ret r : Prog K R).run m = (r, m) := rfl
@[simp] theorem run_pure (r : R) (m : Mem K) : (pure r : Prog K R).run m = (r, m) := rfl
theorem bind_def (p : Prog K R) (f : R → Prog K S) : p >>= f = p.bind f := rfl

theorem run_bind' (p : Prog K R) (f : R → Prog K S) (m : Mem K) : (p.bind f).run m = (f (p.run m).1).run (p.run m).2 := by
  induction p generalizing m with
  | ret r => rfl
  | readI o i k ih => exact ih _ _
  | writeI o i v k ih => exact ih _
  | readC o i k ih => exact ih _ _
  | writeC o i v k ih => exact ih _

@[simp] theorem run_bind (p : Prog K R) (f : R → Prog K S) (m : Mem K) : (p >>= f).run m = (f (p.run m).1).run (p.run m).2 :=
  run_bind' p f m

theorem within_bind' {A : Addr → Prop} {p : Prog K R} {f : R → Prog K S} (hp : p.Within A) (hf : ∀ r, (f r).Within A) :
    (p.bind f).Within A := by
  induction p with
  | ret r => exact hf r
  | readI o i k ih => exact ⟨hp.1, fun v => ih v (hp.2 v)⟩
  | writeI o i v k ih => exact ⟨hp.1, ih hp.2⟩
  | readC o i k ih => exact ⟨hp.1, fun v => ih v (hp.2 v)⟩
  | writeC o i v k ih => exact ⟨hp.1, ih hp.2⟩

theorem within_bind {A : Addr → Prop} {p : Prog K R} {f : R → Prog K S} (hp : p.Within A) (hf : ∀ r, (f r).Within A) :
    (p >>= f).Within A := within_bind' hp hf

theorem within_loopP {A : Addr → Prop} {n : ℕ} {b : ℕ → R → Prog K R} (h : ∀ i < n, ∀ s, (b i s).Within A) (s : R) :
    (loopP n b s).Within A := by
  induction n with
  | zero => trivial
  | succ n ih => exact within_bind' (ih fun i hi => h i (by omega)) (h n (by omega))

theorem within_mono {A B : Addr → Prop} {p : Prog K R} (h : p.Within A) (hAB : ∀ a, A a → B a) : p.Within B := by
  induction p with
  | ret r => trivial
  | readI o i k ih => exact ⟨hAB _ h.1, fun v => ih v (h.2 v)⟩
  | writeI o i v k ih => exact ⟨hAB _ h.1, ih h.2⟩
  | readC o i k ih => exact ⟨hAB _ h.1, fun v => ih v (h.2 v)⟩
  | writeC o i v k ih => exact ⟨hAB _ h.1, ih h.2⟩

/-- The two memories agree on `A`. -/
def Agree (A : Addr → Prop) (m m' : Mem K) : Prop :=
  (∀ o i, A (false, o, i) → m.ijk o i = m'.ijk o i) ∧ ∀ o i, A (true, o, i) → m.C o i = m'.C o i

theorem Agree.setI {A : Addr → Prop} {m m' : Mem K} (h : Agree A m m') (o i v : ℕ) : Agree A (m.setI o i v) (m'.setI o i v) := by
  refine ⟨fun o' i' ha => ?_, h.2⟩
  simp only [Mem.setI, store2]
  split
  · rfl
  · exact h.1 _ _ ha

theorem Agree.setC {A : Addr → Prop} {m m' : Mem K} (h : Agree A m m') (o i : ℕ) (v : K) : Agree A (m.setC o i v) (m'.setC o i v) := by
  refine ⟨h.1, fun o' i' ha => ?_⟩
  simp only [Mem.setC, store2]
  split
  · rfl
  · exact h.2 _ _ ha

/-- What a program returns depends only on the entries it accesses. -/
theorem run_agree {A : Addr → Prop} {p : Prog K R} (h : p.Within A) {m m' : Mem K} (hm : Agree A m m') :
    (p.run m).1 = (p.run m').1 ∧ p.len m = p.len m' := by
  induction p generalizing m m' with
  | ret r => exact ⟨rfl, rfl⟩
  | readI o i k ih =>
    have := ih (m'.ijk o i) (h.2 _) hm
    simp only [Prog.run, Prog.len, hm.1 o i h.1]
    exact ⟨this.1, by rw [this.2]⟩
  | writeI o i v k ih =>
    have := ih h.2 (hm.setI o i v)
    exact ⟨this.1, congrArg (· + 1) this.2⟩
  | readC o i k ih =>
    have := ih (m'.C o i) (h.2 _) hm
    simp only [Prog.run, Prog.len, hm.2 o i h.1]
    exact ⟨this.1, by rw [this.2]⟩
  | writeC o i v k ih =>
    have := ih h.2 (hm.setC o i v)
    exact ⟨this.1, congrArg (· + 1) this.2⟩

/-- A step of a program does not leave its entries, and touches no others. -/
theorem step_within {A : Addr → Prop} {p : Prog K R} (h : p.Within A) (m : Mem K) : (p.step m).1.Within A ∧
    ∀ B : Addr → Prop, (∀ a, A a → ¬ B a) → Agree B m (p.step m).2 := by
  cases p with
  | ret r => exact ⟨trivial, fun B _ => ⟨fun _ _ _ => rfl, fun _ _ _ => rfl⟩⟩
  | readI o i k => exact ⟨h.2 _, fun B _ => ⟨fun _ _ _ => rfl, fun _ _ _ => rfl⟩⟩
  | writeI o i v k =>
    refine ⟨h.2, fun B hB => ⟨fun o' i' hb => ?_, fun _ _ _ => rfl⟩⟩
    simp only [Prog.step, Mem.setI, store2]
    rw [if_neg]
    rintro ⟨rfl, rfl⟩
    exact hB _ h.1 hb
  | readC o i k => exact ⟨h.2 _, fun B _ => ⟨fun _ _ _ => rfl, fun _ _ _ => rfl⟩⟩
  | writeC o i v k =>
    refine ⟨h.2, fun B hB => ⟨fun _ _ _ => rfl, fun o' i' hb => ?_⟩⟩
    simp only [Prog.step, Mem.setC, store2]
    rw [if_neg]
    rintro ⟨rfl, rfl⟩
    exact hB _ h.1 hb

theorem step_run (p : Prog K R) (m : Mem K) : (p.step m).1.run (p.step m).2 = p.run m ∧
    (p.step m).1.len (p.step m).2 = p.len m - 1 := by
  cases p <;> exact ⟨rfl, rfl⟩

/-- Threads whose accesses stay in separate sets of entries behave, under every schedule, as if each ran alone. -/
theorem exec_alone {A : ℕ → Addr → Prop} (hA : ∀ t u, t ≠ u → ∀ a, A t a → ¬ A u a) (l : List ℕ) (s : State K R)
    (hs : ∀ t, (s.thread t).Within (A t)) (t : ℕ) :
    (((exec l s).thread t).run (exec l s).mem).1 = ((s.thread t).run s.mem).1 ∧
      ((exec l s).thread t).len (exec l s).mem = (s.thread t).len s.mem - l.count t ∧ ((exec l s).thread t).Within (A t) := by
  induction l generalizing s with
  | nil => exact ⟨rfl, rfl, hs t⟩
  | cons u l ih =>
    have hw : ∀ v, ((s.step u).thread v).Within (A v) := by
      intro v
      simp only [State.step, store]
      split
      · next h => subst h; exact (step_within (hs v) _).1
      · exact hs v
    obtain ⟨h1, h2, h3⟩ := ih (s.step u) hw
    have key : (((s.step u).thread t).run (s.step u).mem).1 = ((s.thread t).run s.mem).1 ∧
        ((s.step u).thread t).len (s.step u).mem = (s.thread t).len s.mem - if u = t then 1 else 0 := by
      by_cases hut : u = t
      · subst hut
        have := step_run (s.thread u) s.mem
        simp only [State.step, store_same, if_true]
        exact ⟨by rw [this.1], this.2⟩
      · have hag := (step_within (hs u) s.mem).2 (A t) (hA u t hut)
        have := run_agree (hs t) hag
        simp only [State.step, store_ne _ _ (Ne.symm hut), if_neg hut]
        exact ⟨this.1.symm, this.2.symm⟩
    refine ⟨h1.trans key.1, ?_, h3⟩
    rw [exec, h2, key.2, List.count_cons]
    by_cases hut : u = t
    · simp [hut]; omega
    · simp [hut]

theorem len_zero {p : Prog K R} {m : Mem K} (h : p.len m = 0) : p = .ret (p.run m).1 := by
  cases p <;> first | rfl | simp [Prog.len] at h

theorem next_within {A : Addr → Prop} {p : Prog K R} (h : p.Within A) {a : Addr} {w : Bool} (ha : p.next = some (a, w)) : A a := by
  cases p <;> simp only [Prog.next, Option.some.injEq, Prod.mk.injEq, reduceCtorEq] at ha
  all_goals (obtain ⟨rfl, -⟩ := ha; exact h.1)

end Verif.Concurrent
