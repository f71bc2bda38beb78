import Mathlib.Algebra.Order.Archimedean.Real.Basic
import Mathlib.Data.Int.Log
import Mathlib.Tactic.IntervalCases
import Mathlib.Tactic.Ring

/-!
# Text output and input of the C library, as used by the mesh writers and the mesh reader

Files are lists of characters.  `fprintf` is modelled for the conversions `%10d` and `%12.5e`, `fscanf` for `%d`, `%le`
and `%s`, `fgetc` for skipping lines (ISO C 7.21.6.1, 7.21.6.2).  Machine integers are unbounded, `double` is `ℝ`.  A
matching failure or an end of file is `none`; hexadecimal numbers, infinities and NaN are not modelled.
-/

namespace Verif.MeshFile

/-- The characters of a string literal. -/
def chars (s : String) : List Char := s.toList

/-- The decimal digit `d < 10`. -/
def digitChar (d : ℕ) : Char := Char.ofNat (48 + d)
/-- `isdigit` -/
def isDig (c : Char) : Bool := decide (48 ≤ c.toNat ∧ c.toNat ≤ 57)
/-- `isspace` in the C locale: tab, newline, vertical tab, form feed, carriage return, blank -/
def isSp (c : Char) : Bool := decide ((9 ≤ c.toNat ∧ c.toNat ≤ 13) ∨ c.toNat = 32)

/-- Decimal digits of `n`, most significant first. -/
def dec (n : ℕ) : List Char := if n < 10 then [digitChar n] else dec (n / 10) ++ [digitChar (n % 10)]
/-- The last `k` decimal digits of `n`. -/
def digitsN : ℕ → ℕ → List Char
  | 0, _ => []
  | k + 1, n => digitsN k (n / 10) ++ [digitChar (n % 10)]

/-- The number denoted by a string of digits. -/
def digVal (l : List Char) : ℕ := l.foldl (fun a c => a * 10 + (c.toNat - 48)) 0

/-- Blanks up to width `w`. -/
def pad (w : ℕ) (s : List Char) : List Char := List.replicate (w - s.length) ' ' ++ s

/-- `fprintf("%<w>d", z)` -/
def fmtD (w : ℕ) (z : ℤ) : List Char := pad w ((if z < 0 then ['-'] else []) ++ dec z.natAbs)

/-- A decimal number as printed by `%.5e`: sign, six-digit mantissa, exponent of the leading digit. -/
structure Sci where
  neg : Bool
  mant : ℕ
  exp : ℤ

/-- The value of such a number. -/
noncomputable def Sci.val (s : Sci) : ℝ := (if s.neg then -1 else 1) * s.mant * (10 : ℝ) ^ (s.exp - 5)

/-- The digits of `%.5e`. -/
def Sci.text (s : Sci) : List Char :=
  (if s.neg then ['-'] else []) ++ digitsN 1 (s.mant / 10 ^ 5) ++ ['.'] ++ digitsN 5 s.mant ++ ['e'] ++
    (if s.exp < 0 then ['-'] else ['+']) ++ (if s.exp.natAbs < 10 then ['0'] else []) ++ dec s.exp.natAbs

/-- The decimal number printed for the double `x`; `rnd` rounds a real to an integer (the rounding mode). -/
noncomputable def toSci (rnd : ℝ → ℕ) (x : ℝ) : Sci :=
  if x = 0 then ⟨false, 0, 0⟩
  else
    let e := Int.log 10 |x|
    let m := rnd (|x| / (10 : ℝ) ^ (e - 5))
    if m = 10 ^ 6 then ⟨decide (x < 0), 10 ^ 5, e + 1⟩ else ⟨decide (x < 0), m, e⟩

/-- `fprintf("%<w>.5e", x)` -/
noncomputable def fmtE (rnd : ℝ → ℕ) (w : ℕ) (x : ℝ) : List Char := pad w (toSci rnd x).text

/-- An optional sign: is it a minus, and what follows. -/
def scanSign : List Char → Bool × List Char
  | '-' :: t => (true, t)
  | '+' :: t => (false, t)
  | t => (false, t)

/-- `fscanf("%d")`: the number and the rest of the input. -/
def scanD (s : List Char) : Option (ℤ × List Char) :=
  let t := scanSign (s.dropWhile isSp)
  let d := t.2.takeWhile isDig
  if d = [] then none
  else some (if t.1 then -(digVal d : ℤ) else digVal d, t.2.dropWhile isDig)

/-- The fraction part of a floating-point number: its digits and what follows. -/
def scanFrac : List Char → List Char × List Char
  | '.' :: t => (t.takeWhile isDig, t.dropWhile isDig)
  | t => ([], t)

/-- The exponent part of a floating-point number. -/
def scanExp : List Char → Option (ℤ × List Char)
  | 'e' :: t => scanExpNum t
  | 'E' :: t => scanExpNum t
  | t => some (0, t)
where
  /-- sign and digits of the exponent -/
  scanExpNum (t : List Char) : Option (ℤ × List Char) :=
    let u := scanSign t
    let d := u.2.takeWhile isDig
    if d = [] then none else some (if u.1 then -(digVal d : ℤ) else digVal d, u.2.dropWhile isDig)

/-- `fscanf("%le")`: the number and the rest of the input. -/
noncomputable def scanE (s : List Char) : Option (ℝ × List Char) :=
  let t := scanSign (s.dropWhile isSp)
  let d := t.2.takeWhile isDig
  let f := scanFrac (t.2.dropWhile isDig)
  if d ++ f.1 = [] then none
  else (scanExp f.2).map fun e =>
    ((if t.1 then -1 else 1) * (digVal (d ++ f.1) : ℝ) * (10 : ℝ) ^ (e.1 - (f.1.length : ℤ)), e.2)

/-- `fscanf("%s", buffer)` with a buffer of `n` characters: the rest of the input. -/
def scanWord (n : ℕ) (s : List Char) : Option (List Char) :=
  let t := s.dropWhile isSp
  let w := t.takeWhile fun c => !isSp c
  if w = [] ∨ n ≤ w.length then none else some (t.dropWhile fun c => !isSp c)

/-- `while ((ch = fgetc(in)) != '\n')`: the rest of the input after one line. -/
def skipLine : List Char → Option (List Char)
  | [] => none
  | c :: t => if c = '\n' then some t else skipLine t

/-! ## Lemmas -/

theorem digitChar_toNat {d : ℕ} (h : d < 10) : (digitChar d).toNat = 48 + d := by
  interval_cases d <;> rfl

theorem isDig_digitChar {d : ℕ} (h : d < 10) : isDig (digitChar d) = true := by
  unfold isDig; rw [digitChar_toNat h]; exact decide_eq_true ⟨by omega, by omega⟩

theorem dec_dig (n : ℕ) : ∀ c ∈ dec n, isDig c = true := by
  induction n using Nat.strong_induction_on with
  | _ n ih =>
    intro c hc
    rw [dec] at hc
    split_ifs at hc with h
    · rw [List.mem_singleton] at hc; rw [hc]; exact isDig_digitChar h
    · rcases List.mem_append.1 hc with hc | hc
      · exact ih _ (by omega) c hc
      · rw [List.mem_singleton] at hc; rw [hc]; exact isDig_digitChar (Nat.mod_lt _ (by decide))

theorem dec_ne (n : ℕ) : dec n ≠ [] := by
  rw [dec]; split_ifs <;> simp

theorem digitsN_dig (k n : ℕ) : ∀ c ∈ digitsN k n, isDig c = true := by
  induction k generalizing n with
  | zero => intro c hc; simp [digitsN] at hc
  | succ k ih =>
    intro c hc
    rw [digitsN] at hc
    rcases List.mem_append.1 hc with hc | hc
    · exact ih _ c hc
    · rw [List.mem_singleton] at hc; rw [hc]; exact isDig_digitChar (Nat.mod_lt _ (by decide))

theorem digitsN_length (k n : ℕ) : (digitsN k n).length = k := by
  induction k generalizing n with
  | zero => rfl
  | succ k ih => rw [digitsN, List.length_append, ih]; rfl

theorem digVal_snoc (l : List Char) (d : ℕ) (h : d < 10) : digVal (l ++ [digitChar d]) = digVal l * 10 + d := by
  unfold digVal
  rw [List.foldl_append]
  simp only [List.foldl_cons, List.foldl_nil]
  rw [digitChar_toNat h, Nat.add_sub_cancel_left]

theorem digVal_dec (n : ℕ) : digVal (dec n) = n := by
  induction n using Nat.strong_induction_on with
  | _ n ih =>
    rw [dec]
    split_ifs with h
    · have := digVal_snoc [] n h
      simpa [digVal] using this
    · rw [digVal_snoc _ _ (Nat.mod_lt _ (by decide)), ih _ (by omega)]
      omega

theorem digVal_append_digitsN (l : List Char) (k n : ℕ) :
    digVal (l ++ digitsN k n) = digVal l * 10 ^ k + n % 10 ^ k := by
  induction k generalizing n with
  | zero => simp [digitsN, Nat.mod_one]
  | succ k ih =>
    rw [digitsN, ← List.append_assoc, digVal_snoc _ _ (Nat.mod_lt _ (by decide)), ih, pow_succ]
    rw [Nat.mul_comm (10 ^ k) 10, Nat.mod_mul]
    ring

theorem dec_length {n k : ℕ} (hk : 1 ≤ k) (h : n < 10 ^ k) : (dec n).length ≤ k := by
  induction k generalizing n with
  | zero => omega
  | succ k ih =>
    rw [dec]
    split_ifs with h10
    · simp
    · rw [List.length_append, List.length_singleton]
      have : 1 ≤ k := by
        by_contra hc
        have : k = 0 := by omega
        subst this; simp at h; omega
      have := ih this (n := n / 10) (by rw [pow_succ] at h; omega)
      omega

theorem dec_length_ge {n k : ℕ} (h : 10 ^ k ≤ n) : k + 1 ≤ (dec n).length := by
  induction k generalizing n with
  | zero => exact Nat.succ_le_of_lt (List.length_pos_iff.2 (dec_ne n))
  | succ k ih =>
    have h1 : ¬ n < 10 := by
      have : 10 ^ 1 ≤ 10 ^ (k + 1) := Nat.pow_le_pow_right (by decide) (by omega)
      omega
    rw [dec, if_neg h1, List.length_append, List.length_singleton]
    have := ih (n := n / 10) (by rw [pow_succ] at h; omega)
    omega

/-- The input does not go on with a digit. -/
def NoDig (s : List Char) : Prop := ∀ c t, s = c :: t → isDig c = false

theorem take_digits {d t : List Char} (hd : ∀ c ∈ d, isDig c = true) (ht : NoDig t) :
    (d ++ t).takeWhile isDig = d ∧ (d ++ t).dropWhile isDig = t := by
  rw [List.takeWhile_append_of_pos hd, List.dropWhile_append_of_pos hd]
  cases t with
  | nil => simp
  | cons c t =>
    have := ht c t rfl
    rw [List.takeWhile_cons, List.dropWhile_cons, this]
    simp

theorem drop_spaces {w t : List Char} (hw : ∀ c ∈ w, isSp c = true) (ht : ∀ c u, t = c :: u → isSp c = false) :
    (w ++ t).dropWhile isSp = t := by
  rw [List.dropWhile_append_of_pos hw]
  cases t with
  | nil => rfl
  | cons c t => rw [List.dropWhile_cons, ht c t rfl]; simp

theorem sp_of_dig {c : Char} (h : isDig c = true) : isSp c = false := by
  unfold isDig at h; unfold isSp
  have h := of_decide_eq_true h
  exact decide_eq_false (by omega)

theorem scanSign_digits {d : List Char} (hd : ∀ c ∈ d, isDig c = true) (hne : d ≠ []) (t : List Char) :
    scanSign (d ++ t) = (false, d ++ t) := by
  cases d with
  | nil => exact absurd rfl hne
  | cons c d =>
    have hc := hd c (by simp)
    have h1 : c ≠ '-' := by rintro rfl; revert hc; decide
    have h2 : c ≠ '+' := by rintro rfl; revert hc; decide
    simp only [List.cons_append]
    unfold scanSign
    split
    · rename_i h; exact absurd (List.cons.inj h).1 h1
    · rename_i h; exact absurd (List.cons.inj h).1 h2
    · rfl

theorem scanSign_minus (b : Bool) {d : List Char} (hd : ∀ c ∈ d, isDig c = true) (hne : d ≠ []) (t : List Char) :
    scanSign ((if b then ['-'] else []) ++ d ++ t) = (b, d ++ t) := by
  cases b
  · simpa using scanSign_digits hd hne t
  · simp [scanSign]

theorem signed_head (b : Bool) {d : List Char} (hd : ∀ c ∈ d, isDig c = true) (hne : d ≠ []) (t : List Char) :
    ∀ c u, (if b then ['-'] else []) ++ d ++ t = c :: u → isSp c = false := by
  intro c u h
  cases b
  · cases d with
    | nil => exact absurd rfl hne
    | cons a d =>
      simp only [Bool.false_eq_true, if_false, List.nil_append, List.cons_append, List.cons.injEq] at h
      rw [← h.1]; exact sp_of_dig (hd a (by simp))
  · simp only [if_true, List.cons_append, List.nil_append, List.cons.injEq] at h
    rw [← h.1]; decide

/-- Reading back an integer. -/
theorem scanD_fmtD {w : List Char} (hw : ∀ c ∈ w, isSp c = true) (n : ℕ) (z : ℤ) {t : List Char} (ht : NoDig t) :
    scanD (w ++ (fmtD n z ++ t)) = some (z, t) := by
  have hd := dec_dig z.natAbs
  have hne := dec_ne z.natAbs
  have e : w ++ (fmtD n z ++ t) =
      (w ++ List.replicate (n - ((if z < 0 then ['-'] else []) ++ dec z.natAbs).length) ' ') ++
      ((if decide (z < 0) then ['-'] else []) ++ dec z.natAbs ++ t) := by
    unfold fmtD pad
    simp [List.append_assoc]
  rw [e]
  unfold scanD
  rw [drop_spaces ?_ (signed_head _ hd hne t)]
  · simp only []
    rw [scanSign_minus _ hd hne]
    simp only []
    rw [(take_digits hd ht).1, (take_digits hd ht).2, if_neg hne, digVal_dec]
    simp only [decide_eq_true_eq, Option.some.injEq, Prod.mk.injEq, and_true]
    split_ifs <;> omega
  · intro c hc
    rcases List.mem_append.1 hc with hc | hc
    · exact hw c hc
    · rw [(List.mem_replicate.1 hc).2]; decide

theorem scanExp_text (e : ℤ) {t : List Char} (ht : NoDig t) :
    scanExp (['e'] ++ (if e < 0 then ['-'] else ['+']) ++ (if e.natAbs < 10 then ['0'] else []) ++ dec e.natAbs ++ t) = some (e, t) := by
  have hd : ∀ c ∈ (if e.natAbs < 10 then ['0'] else []) ++ dec e.natAbs, isDig c = true := by
    intro c hc
    rcases List.mem_append.1 hc with hc | hc
    · split_ifs at hc
      · rw [List.mem_singleton] at hc; rw [hc]; decide
      · simp at hc
    · exact dec_dig _ c hc
  have hne : (if e.natAbs < 10 then ['0'] else []) ++ dec e.natAbs ≠ [] := by
    intro h; exact dec_ne _ (List.append_eq_nil_iff.1 h).2
  have hv : digVal ((if e.natAbs < 10 then ['0'] else []) ++ dec e.natAbs) = e.natAbs := by
    split_ifs
    · have : digVal (['0'] ++ dec e.natAbs) = digVal (dec e.natAbs) := rfl
      rw [this, digVal_dec]
    · rw [List.nil_append, digVal_dec]
  generalize hD : (if e.natAbs < 10 then ['0'] else []) ++ dec e.natAbs = D at hd hne hv
  have e1 : ['e'] ++ (if e < 0 then ['-'] else ['+']) ++ (if e.natAbs < 10 then ['0'] else []) ++ dec e.natAbs ++ t =
      'e' :: ((if e < 0 then ['-'] else ['+']) ++ (D ++ t)) := by
    rw [← hD]; simp [List.append_assoc]
  rw [e1]
  have e2 : scanSign ((if e < 0 then ['-'] else ['+']) ++ (D ++ t)) = (decide (e < 0), D ++ t) := by
    split_ifs with h <;> simp [scanSign, h]
  show scanExp.scanExpNum _ = _
  unfold scanExp.scanExpNum
  simp only []
  rw [e2]
  simp only []
  rw [(take_digits hd ht).1, (take_digits hd ht).2, if_neg hne, hv]
  simp only [decide_eq_true_eq, Option.some.injEq, Prod.mk.injEq, and_true]
  split_ifs <;> omega

/-- Reading back a number printed by `%.5e`. -/
theorem scanE_text {w : List Char} (hw : ∀ c ∈ w, isSp c = true) (s : Sci) (hs : s.mant < 10 ^ 6) {t : List Char} (ht : NoDig t) :
    scanE (w ++ (s.text ++ t)) = some (s.val, t) := by
  have d1 := digitsN_dig 1 (s.mant / 10 ^ 5)
  have d5 := digitsN_dig 5 s.mant
  have n1 : digitsN 1 (s.mant / 10 ^ 5) ≠ [] := by
    intro h; have := digitsN_length 1 (s.mant / 10 ^ 5); rw [h] at this; simp at this
  let u := ['e'] ++ (if s.exp < 0 then ['-'] else ['+']) ++ (if s.exp.natAbs < 10 then ['0'] else []) ++ dec s.exp.natAbs ++ t
  have e : w ++ (s.text ++ t) = w ++ ((if s.neg then ['-'] else []) ++ digitsN 1 (s.mant / 10 ^ 5) ++ ('.' :: (digitsN 5 s.mant ++ u))) := by
    unfold Sci.text; simp [u, List.append_assoc]
  have hu : NoDig u := by
    intro c v h
    simp only [u, List.cons_append, List.nil_append, List.cons.injEq] at h
    rw [← h.1]; decide
  have hp : NoDig ('.' :: (digitsN 5 s.mant ++ u)) := by
    intro c v h; rw [← (List.cons.inj h).1]; decide
  rw [e]
  unfold scanE
  rw [drop_spaces hw (signed_head _ d1 n1 _)]
  simp only []
  rw [scanSign_minus _ d1 n1]
  simp only []
  rw [(take_digits d1 hp).1, (take_digits d1 hp).2]
  have ef : scanFrac ('.' :: (digitsN 5 s.mant ++ u)) = (digitsN 5 s.mant, u) := by
    show ((digitsN 5 s.mant ++ u).takeWhile isDig, (digitsN 5 s.mant ++ u).dropWhile isDig) = _
    rw [(take_digits d5 hu).1, (take_digits d5 hu).2]
  rw [ef]
  simp only []
  rw [if_neg (by intro h; exact n1 (List.append_eq_nil_iff.1 h).1)]
  show (scanExp u).map _ = _
  rw [show scanExp u = some (s.exp, t) from scanExp_text s.exp ht]
  simp only [Option.map_some, Option.some.injEq, Prod.mk.injEq, and_true]
  rw [digVal_append_digitsN, show digVal (digitsN 1 (s.mant / 10 ^ 5)) = 0 * 10 ^ 1 + s.mant / 10 ^ 5 % 10 ^ 1 from
    digVal_append_digitsN [] 1 _, digitsN_length]
  have : (0 * 10 ^ 1 + s.mant / 10 ^ 5 % 10 ^ 1) * 10 ^ 5 + s.mant % 10 ^ 5 = s.mant := by omega
  rw [this]
  rfl

end Verif.MeshFile
