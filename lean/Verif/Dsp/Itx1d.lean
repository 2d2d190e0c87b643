import Verif.Dsp.Mc
/-!
# The one-dimensional inverse transforms, src/itx_1d.c

The functions of src/itx_1d.c are straight-line code on `int`. They are written here as lists of assignments, in the order
and with the grouping of the source, and `run` gives them their meaning: `none` is the undefined behaviour of an
intermediate result that does not fit an `int`, or the use of a variable or array element that has no value.

Simplifications: `x >> n` of a negative number is the arithmetic shift (implementation-defined in C). The stride is left
out: `c n` is `c[n * stride]`. A product with a constant expression, such as `in3 * (3784 - 4096)`, has the value of the
constant as its factor. The local variables of a function and of the one it calls share names; all of them are assigned
before they are used.
-/
namespace Dav1d.Itx

/-- The variables `in0`, `t0`, `t0a` and the elements `c[0 * stride]`. -/
inductive Reg where
  | i (n : Nat) | t (n : Nat) | ta (n : Nat) | c (n : Nat)

/-- A number for each variable. -/
def Reg.code : Reg → Nat
  | .i n => 4 * n | .t n => 4 * n + 1 | .ta n => 4 * n + 2 | .c n => 4 * n + 3

/-- Expressions: variable, literal, sum, difference, product with a constant, right shift, sign change, CLIP. -/
inductive E where
  | reg (r : Reg) | lit (k : Int) | add (a b : E) | sub (a b : E) | mul (a : E) (k : Int) | shr (a : E) (n : Nat)
  | neg (a : E) | clip (a : E)

instance : Add E := ⟨E.add⟩
instance : Sub E := ⟨E.sub⟩
instance : Neg E := ⟨E.neg⟩
instance {n : Nat} : OfNat E n := ⟨E.lit n⟩

/-- A function body: assignments in order. -/
abbrev Prog := List (Reg × E)

def E.target : E → Reg
  | .reg r => r
  | _ => .c 0

scoped infixl:70 " ** " => E.mul
instance : HShiftRight E Nat E := ⟨E.shr⟩
scoped infix:50 " ≔ " => fun (a b : E) => ((E.target a, b) : Reg × E)

def i (n : Nat) : E := .reg (.i n)
def t (n : Nat) : E := .reg (.t n)
def ta (n : Nat) : E := .reg (.ta n)
def c (n : Nat) : E := .reg (.c n)
def clip (a : E) : E := .clip a

/-- Values of variables, the latest assignment first. -/
abbrev Store (α : Type) := List (Reg × α)

def Store.get {α : Type} : Store α → Reg → Option α
  | [], _ => none
  | (r', v) :: s, r => if Nat.beq r'.code r.code then some v else Store.get s r

/-- What the operations do on values of type `α`; `keep` is application. -/
structure Dom (α : Type) where
  lit : Int → α
  add : α → α → Option α
  sub : α → α → Option α
  mul : α → Int → Option α
  shr : α → Nat → Option α
  neg : α → Option α
  clip : α → Option α
  keep : α → (α → Option (Store α)) → Option (Store α)
  keep_eq : ∀ v k, keep v k = k v

def E.eval {α : Type} (D : Dom α) (s : Store α) : E → Option α
  | .reg r => s.get r
  | .lit k => some (D.lit k)
  | .add a b => (E.eval D s a).bind fun x => (E.eval D s b).bind fun y => D.add x y
  | .sub a b => (E.eval D s a).bind fun x => (E.eval D s b).bind fun y => D.sub x y
  | .mul a k => (E.eval D s a).bind fun x => D.mul x k
  | .shr a n => (E.eval D s a).bind fun x => D.shr x n
  | .neg a => (E.eval D s a).bind fun x => D.neg x
  | .clip a => (E.eval D s a).bind fun x => D.clip x

def run {α : Type} (D : Dom α) : Prog → Store α → Option (Store α)
  | [], s => some s
  | (r, e) :: p, s => (E.eval D s e).bind fun v => D.keep v fun v => run D p ((r, v) :: s)

/-- A result of type `int`. -/
def fit (v : Int) : Option Int := if -2147483648 ≤ v ∧ v ≤ 2147483647 then some v else none

/-- The meaning in C. CLIP is `iclip(a, min, max)`, src/itx_1d.c:37. -/
def int32 (lo hi : Int) : Dom Int where
  lit k := k
  add a b := fit (a + b)
  sub a b := fit (a - b)
  mul a k := fit (a * k)
  shr a n := some (asr a n)
  neg a := fit (-a)
  clip a := some (iclip a lo hi)
  keep v k := k v
  keep_eq _ _ := rfl

/-- The elements `c[0]`, `c[1]`, … -/
def load {α : Type} : Nat → List α → Store α
  | _, [] => []
  | n, x :: xs => (.c n, x) :: load (n + 1) xs

/-- `c[n]`, …, `c[n + k - 1]` -/
def unload {α : Type} (s : Store α) : Nat → Nat → Option (List α)
  | _, 0 => some []
  | n, k + 1 => (s.get (.c n)).bind fun x => (unload s (n + 1) k).map (x :: ·)

/-- Calls a transform on an array whose first elements are `x`; the result is the first `n` elements afterwards. -/
def call {α : Type} (D : Dom α) (p : Prog) (n : Nat) (x : List α) : Option (List α) :=
  (run D p (load 0 x)).bind fun s => unload s 0 n

/-- The same variable when the function is called with twice the stride. -/
def Reg.stride2 : Reg → Reg
  | .c n => .c (2 * n)
  | r => r

def E.stride2 : E → E
  | .reg r => .reg r.stride2
  | .lit k => .lit k
  | .add a b => .add a.stride2 b.stride2
  | .sub a b => .sub a.stride2 b.stride2
  | .mul a k => .mul a.stride2 k
  | .shr a n => .shr a.stride2 n
  | .neg a => .neg a.stride2
  | .clip a => .clip a.stride2

/-- Calling a function with `stride << 1`. -/
def stride2 (p : Prog) : Prog := p.map fun q => (q.1.stride2, q.2.stride2)

/-- inv_dct4_1d_internal_c, src/itx_1d.c:65-90. -/
def dct4 (tx64 : Bool) : Prog :=
  [
    i 0 ≔ c 0,
    i 1 ≔ c 1] ++
  (if tx64 then [
    t 1 ≔ (i 0 ** 181 + 128) >>> 8,
    t 0 ≔ t 1,
    t 2 ≔ (i 1 ** 1567 + 2048) >>> 12,
    t 3 ≔ (i 1 ** 3784 + 2048) >>> 12]
  else [
    i 2 ≔ c 2,
    i 3 ≔ c 3,
    t 0 ≔ ((i 0 + i 2) ** 181 + 128) >>> 8,
    t 1 ≔ ((i 0 - i 2) ** 181 + 128) >>> 8,
    t 2 ≔ ((i 1 ** 1567 - i 3 ** (3784 - 4096) + 2048) >>> 12) - i 3,
    t 3 ≔ ((i 1 ** (3784 - 4096) + i 3 ** 1567 + 2048) >>> 12) + i 1]) ++
  [
    c 0 ≔ clip (t 0 + t 3),
    c 1 ≔ clip (t 1 + t 2),
    c 2 ≔ clip (t 1 - t 2),
    c 3 ≔ clip (t 0 - t 3)]

/-- inv_dct8_1d_internal_c, src/itx_1d.c:98-143. -/
def dct8 (tx64 : Bool) : Prog :=
  stride2 (dct4 tx64) ++
  [
    i 1 ≔ c 1,
    i 3 ≔ c 3] ++
  (if tx64 then [
    ta 4 ≔ (i 1 ** 799 + 2048) >>> 12,
    ta 5 ≔ (i 3 ** (-2276) + 2048) >>> 12,
    ta 6 ≔ (i 3 ** 3406 + 2048) >>> 12,
    ta 7 ≔ (i 1 ** 4017 + 2048) >>> 12]
  else [
    i 5 ≔ c 5,
    i 7 ≔ c 7,
    ta 4 ≔ ((i 1 ** 799 - i 7 ** (4017 - 4096) + 2048) >>> 12) - i 7,
    ta 5 ≔ (i 5 ** 1703 - i 3 ** 1138 + 1024) >>> 11,
    ta 6 ≔ (i 5 ** 1138 + i 3 ** 1703 + 1024) >>> 11,
    ta 7 ≔ ((i 1 ** (4017 - 4096) + i 7 ** 799 + 2048) >>> 12) + i 1]) ++
  [
    t 4 ≔ clip (ta 4 + ta 5),
    ta 5 ≔ clip (ta 4 - ta 5),
    t 7 ≔ clip (ta 7 + ta 6),
    ta 6 ≔ clip (ta 7 - ta 6),
    t 5 ≔ ((ta 6 - ta 5) ** 181 + 128) >>> 8,
    t 6 ≔ ((ta 6 + ta 5) ** 181 + 128) >>> 8,
    t 0 ≔ c 0,
    t 1 ≔ c 2,
    t 2 ≔ c 4,
    t 3 ≔ c 6,
    c 0 ≔ clip (t 0 + t 7),
    c 1 ≔ clip (t 1 + t 6),
    c 2 ≔ clip (t 2 + t 5),
    c 3 ≔ clip (t 3 + t 4),
    c 4 ≔ clip (t 3 - t 4),
    c 5 ≔ clip (t 2 - t 5),
    c 6 ≔ clip (t 1 - t 6),
    c 7 ≔ clip (t 0 - t 7)]

/-- inv_dct16_1d_internal_c, src/itx_1d.c:151-238. -/
def dct16 (tx64 : Bool) : Prog :=
  stride2 (dct8 tx64) ++
  [
    i 1 ≔ c 1,
    i 3 ≔ c 3,
    i 5 ≔ c 5,
    i 7 ≔ c 7] ++
  (if tx64 then [
    ta 8 ≔ (i 1 ** 401 + 2048) >>> 12,
    ta 9 ≔ (i 7 ** (-2598) + 2048) >>> 12,
    ta 10 ≔ (i 5 ** 1931 + 2048) >>> 12,
    ta 11 ≔ (i 3 ** (-1189) + 2048) >>> 12,
    ta 12 ≔ (i 3 ** 3920 + 2048) >>> 12,
    ta 13 ≔ (i 5 ** 3612 + 2048) >>> 12,
    ta 14 ≔ (i 7 ** 3166 + 2048) >>> 12,
    ta 15 ≔ (i 1 ** 4076 + 2048) >>> 12]
  else [
    i 9 ≔ c 9,
    i 11 ≔ c 11,
    i 13 ≔ c 13,
    i 15 ≔ c 15,
    ta 8 ≔ ((i 1 ** 401 - i 15 ** (4076 - 4096) + 2048) >>> 12) - i 15,
    ta 9 ≔ (i 9 ** 1583 - i 7 ** 1299 + 1024) >>> 11,
    ta 10 ≔ ((i 5 ** 1931 - i 11 ** (3612 - 4096) + 2048) >>> 12) - i 11,
    ta 11 ≔ ((i 13 ** (3920 - 4096) - i 3 ** 1189 + 2048) >>> 12) + i 13,
    ta 12 ≔ ((i 13 ** 1189 + i 3 ** (3920 - 4096) + 2048) >>> 12) + i 3,
    ta 13 ≔ ((i 5 ** (3612 - 4096) + i 11 ** 1931 + 2048) >>> 12) + i 5,
    ta 14 ≔ (i 9 ** 1299 + i 7 ** 1583 + 1024) >>> 11,
    ta 15 ≔ ((i 1 ** (4076 - 4096) + i 15 ** 401 + 2048) >>> 12) + i 1]) ++
  [
    t 8 ≔ clip (ta 8 + ta 9),
    t 9 ≔ clip (ta 8 - ta 9),
    t 10 ≔ clip (ta 11 - ta 10),
    t 11 ≔ clip (ta 11 + ta 10),
    t 12 ≔ clip (ta 12 + ta 13),
    t 13 ≔ clip (ta 12 - ta 13),
    t 14 ≔ clip (ta 15 - ta 14),
    t 15 ≔ clip (ta 15 + ta 14),
    ta 9 ≔ ((t 14 ** 1567 - t 9 ** (3784 - 4096) + 2048) >>> 12) - t 9,
    ta 14 ≔ ((t 14 ** (3784 - 4096) + t 9 ** 1567 + 2048) >>> 12) + t 14,
    ta 10 ≔ ((-(t 13 ** (3784 - 4096) + t 10 ** 1567) + 2048) >>> 12) - t 13,
    ta 13 ≔ ((t 13 ** 1567 - t 10 ** (3784 - 4096) + 2048) >>> 12) - t 10,
    ta 8 ≔ clip (t 8 + t 11),
    t 9 ≔ clip (ta 9 + ta 10),
    t 10 ≔ clip (ta 9 - ta 10),
    ta 11 ≔ clip (t 8 - t 11),
    ta 12 ≔ clip (t 15 - t 12),
    t 13 ≔ clip (ta 14 - ta 13),
    t 14 ≔ clip (ta 14 + ta 13),
    ta 15 ≔ clip (t 15 + t 12),
    ta 10 ≔ ((t 13 - t 10) ** 181 + 128) >>> 8,
    ta 13 ≔ ((t 13 + t 10) ** 181 + 128) >>> 8,
    t 11 ≔ ((ta 12 - ta 11) ** 181 + 128) >>> 8,
    t 12 ≔ ((ta 12 + ta 11) ** 181 + 128) >>> 8,
    t 0 ≔ c 0,
    t 1 ≔ c 2,
    t 2 ≔ c 4,
    t 3 ≔ c 6,
    t 4 ≔ c 8,
    t 5 ≔ c 10,
    t 6 ≔ c 12,
    t 7 ≔ c 14,
    c 0 ≔ clip (t 0 + ta 15),
    c 1 ≔ clip (t 1 + t 14),
    c 2 ≔ clip (t 2 + ta 13),
    c 3 ≔ clip (t 3 + t 12),
    c 4 ≔ clip (t 4 + t 11),
    c 5 ≔ clip (t 5 + ta 10),
    c 6 ≔ clip (t 6 + t 9),
    c 7 ≔ clip (t 7 + ta 8),
    c 8 ≔ clip (t 7 - ta 8),
    c 9 ≔ clip (t 6 - t 9),
    c 10 ≔ clip (t 5 - ta 10),
    c 11 ≔ clip (t 4 - t 11),
    c 12 ≔ clip (t 3 - t 12),
    c 13 ≔ clip (t 2 - ta 13),
    c 14 ≔ clip (t 1 - t 14),
    c 15 ≔ clip (t 0 - ta 15)]

/-- inv_dct32_1d_internal_c, src/itx_1d.c:246-428. -/
def dct32 (tx64 : Bool) : Prog :=
  stride2 (dct16 tx64) ++
  [
    i 1 ≔ c 1,
    i 3 ≔ c 3,
    i 5 ≔ c 5,
    i 7 ≔ c 7,
    i 9 ≔ c 9,
    i 11 ≔ c 11,
    i 13 ≔ c 13,
    i 15 ≔ c 15] ++
  (if tx64 then [
    ta 16 ≔ (i 1 ** 201 + 2048) >>> 12,
    ta 17 ≔ (i 15 ** (-2751) + 2048) >>> 12,
    ta 18 ≔ (i 9 ** 1751 + 2048) >>> 12,
    ta 19 ≔ (i 7 ** (-1380) + 2048) >>> 12,
    ta 20 ≔ (i 5 ** 995 + 2048) >>> 12,
    ta 21 ≔ (i 11 ** (-2106) + 2048) >>> 12,
    ta 22 ≔ (i 13 ** 2440 + 2048) >>> 12,
    ta 23 ≔ (i 3 ** (-601) + 2048) >>> 12,
    ta 24 ≔ (i 3 ** 4052 + 2048) >>> 12,
    ta 25 ≔ (i 13 ** 3290 + 2048) >>> 12,
    ta 26 ≔ (i 11 ** 3513 + 2048) >>> 12,
    ta 27 ≔ (i 5 ** 3973 + 2048) >>> 12,
    ta 28 ≔ (i 7 ** 3857 + 2048) >>> 12,
    ta 29 ≔ (i 9 ** 3703 + 2048) >>> 12,
    ta 30 ≔ (i 15 ** 3035 + 2048) >>> 12,
    ta 31 ≔ (i 1 ** 4091 + 2048) >>> 12]
  else [
    i 17 ≔ c 17,
    i 19 ≔ c 19,
    i 21 ≔ c 21,
    i 23 ≔ c 23,
    i 25 ≔ c 25,
    i 27 ≔ c 27,
    i 29 ≔ c 29,
    i 31 ≔ c 31,
    ta 16 ≔ ((i 1 ** 201 - i 31 ** (4091 - 4096) + 2048) >>> 12) - i 31,
    ta 17 ≔ ((i 17 ** (3035 - 4096) - i 15 ** 2751 + 2048) >>> 12) + i 17,
    ta 18 ≔ ((i 9 ** 1751 - i 23 ** (3703 - 4096) + 2048) >>> 12) - i 23,
    ta 19 ≔ ((i 25 ** (3857 - 4096) - i 7 ** 1380 + 2048) >>> 12) + i 25,
    ta 20 ≔ ((i 5 ** 995 - i 27 ** (3973 - 4096) + 2048) >>> 12) - i 27,
    ta 21 ≔ ((i 21 ** (3513 - 4096) - i 11 ** 2106 + 2048) >>> 12) + i 21,
    ta 22 ≔ (i 13 ** 1220 - i 19 ** 1645 + 1024) >>> 11,
    ta 23 ≔ ((i 29 ** (4052 - 4096) - i 3 ** 601 + 2048) >>> 12) + i 29,
    ta 24 ≔ ((i 29 ** 601 + i 3 ** (4052 - 4096) + 2048) >>> 12) + i 3,
    ta 25 ≔ (i 13 ** 1645 + i 19 ** 1220 + 1024) >>> 11,
    ta 26 ≔ ((i 21 ** 2106 + i 11 ** (3513 - 4096) + 2048) >>> 12) + i 11,
    ta 27 ≔ ((i 5 ** (3973 - 4096) + i 27 ** 995 + 2048) >>> 12) + i 5,
    ta 28 ≔ ((i 25 ** 1380 + i 7 ** (3857 - 4096) + 2048) >>> 12) + i 7,
    ta 29 ≔ ((i 9 ** (3703 - 4096) + i 23 ** 1751 + 2048) >>> 12) + i 9,
    ta 30 ≔ ((i 17 ** 2751 + i 15 ** (3035 - 4096) + 2048) >>> 12) + i 15,
    ta 31 ≔ ((i 1 ** (4091 - 4096) + i 31 ** 201 + 2048) >>> 12) + i 1]) ++
  [
    t 16 ≔ clip (ta 16 + ta 17),
    t 17 ≔ clip (ta 16 - ta 17),
    t 18 ≔ clip (ta 19 - ta 18),
    t 19 ≔ clip (ta 19 + ta 18),
    t 20 ≔ clip (ta 20 + ta 21),
    t 21 ≔ clip (ta 20 - ta 21),
    t 22 ≔ clip (ta 23 - ta 22),
    t 23 ≔ clip (ta 23 + ta 22),
    t 24 ≔ clip (ta 24 + ta 25),
    t 25 ≔ clip (ta 24 - ta 25),
    t 26 ≔ clip (ta 27 - ta 26),
    t 27 ≔ clip (ta 27 + ta 26),
    t 28 ≔ clip (ta 28 + ta 29),
    t 29 ≔ clip (ta 28 - ta 29),
    t 30 ≔ clip (ta 31 - ta 30),
    t 31 ≔ clip (ta 31 + ta 30),
    ta 17 ≔ ((t 30 ** 799 - t 17 ** (4017 - 4096) + 2048) >>> 12) - t 17,
    ta 30 ≔ ((t 30 ** (4017 - 4096) + t 17 ** 799 + 2048) >>> 12) + t 30,
    ta 18 ≔ ((-(t 29 ** (4017 - 4096) + t 18 ** 799) + 2048) >>> 12) - t 29,
    ta 29 ≔ ((t 29 ** 799 - t 18 ** (4017 - 4096) + 2048) >>> 12) - t 18,
    ta 21 ≔ (t 26 ** 1703 - t 21 ** 1138 + 1024) >>> 11,
    ta 26 ≔ (t 26 ** 1138 + t 21 ** 1703 + 1024) >>> 11,
    ta 22 ≔ (-(t 25 ** 1138 + t 22 ** 1703) + 1024) >>> 11,
    ta 25 ≔ (t 25 ** 1703 - t 22 ** 1138 + 1024) >>> 11,
    ta 16 ≔ clip (t 16 + t 19),
    t 17 ≔ clip (ta 17 + ta 18),
    t 18 ≔ clip (ta 17 - ta 18),
    ta 19 ≔ clip (t 16 - t 19),
    ta 20 ≔ clip (t 23 - t 20),
    t 21 ≔ clip (ta 22 - ta 21),
    t 22 ≔ clip (ta 22 + ta 21),
    ta 23 ≔ clip (t 23 + t 20),
    ta 24 ≔ clip (t 24 + t 27),
    t 25 ≔ clip (ta 25 + ta 26),
    t 26 ≔ clip (ta 25 - ta 26),
    ta 27 ≔ clip (t 24 - t 27),
    ta 28 ≔ clip (t 31 - t 28),
    t 29 ≔ clip (ta 30 - ta 29),
    t 30 ≔ clip (ta 30 + ta 29),
    ta 31 ≔ clip (t 31 + t 28),
    ta 18 ≔ ((t 29 ** 1567 - t 18 ** (3784 - 4096) + 2048) >>> 12) - t 18,
    ta 29 ≔ ((t 29 ** (3784 - 4096) + t 18 ** 1567 + 2048) >>> 12) + t 29,
    t 19 ≔ ((ta 28 ** 1567 - ta 19 ** (3784 - 4096) + 2048) >>> 12) - ta 19,
    t 28 ≔ ((ta 28 ** (3784 - 4096) + ta 19 ** 1567 + 2048) >>> 12) + ta 28,
    t 20 ≔ ((-(ta 27 ** (3784 - 4096) + ta 20 ** 1567) + 2048) >>> 12) - ta 27,
    t 27 ≔ ((ta 27 ** 1567 - ta 20 ** (3784 - 4096) + 2048) >>> 12) - ta 20,
    ta 21 ≔ ((-(t 26 ** (3784 - 4096) + t 21 ** 1567) + 2048) >>> 12) - t 26,
    ta 26 ≔ ((t 26 ** 1567 - t 21 ** (3784 - 4096) + 2048) >>> 12) - t 21,
    t 16 ≔ clip (ta 16 + ta 23),
    ta 17 ≔ clip (t 17 + t 22),
    t 18 ≔ clip (ta 18 + ta 21),
    ta 19 ≔ clip (t 19 + t 20),
    ta 20 ≔ clip (t 19 - t 20),
    t 21 ≔ clip (ta 18 - ta 21),
    ta 22 ≔ clip (t 17 - t 22),
    t 23 ≔ clip (ta 16 - ta 23),
    t 24 ≔ clip (ta 31 - ta 24),
    ta 25 ≔ clip (t 30 - t 25),
    t 26 ≔ clip (ta 29 - ta 26),
    ta 27 ≔ clip (t 28 - t 27),
    ta 28 ≔ clip (t 28 + t 27),
    t 29 ≔ clip (ta 29 + ta 26),
    ta 30 ≔ clip (t 30 + t 25),
    t 31 ≔ clip (ta 31 + ta 24),
    t 20 ≔ ((ta 27 - ta 20) ** 181 + 128) >>> 8,
    t 27 ≔ ((ta 27 + ta 20) ** 181 + 128) >>> 8,
    ta 21 ≔ ((t 26 - t 21) ** 181 + 128) >>> 8,
    ta 26 ≔ ((t 26 + t 21) ** 181 + 128) >>> 8,
    t 22 ≔ ((ta 25 - ta 22) ** 181 + 128) >>> 8,
    t 25 ≔ ((ta 25 + ta 22) ** 181 + 128) >>> 8,
    ta 23 ≔ ((t 24 - t 23) ** 181 + 128) >>> 8,
    ta 24 ≔ ((t 24 + t 23) ** 181 + 128) >>> 8,
    t 0 ≔ c 0,
    t 1 ≔ c 2,
    t 2 ≔ c 4,
    t 3 ≔ c 6,
    t 4 ≔ c 8,
    t 5 ≔ c 10,
    t 6 ≔ c 12,
    t 7 ≔ c 14,
    t 8 ≔ c 16,
    t 9 ≔ c 18,
    t 10 ≔ c 20,
    t 11 ≔ c 22,
    t 12 ≔ c 24,
    t 13 ≔ c 26,
    t 14 ≔ c 28,
    t 15 ≔ c 30,
    c 0 ≔ clip (t 0 + t 31),
    c 1 ≔ clip (t 1 + ta 30),
    c 2 ≔ clip (t 2 + t 29),
    c 3 ≔ clip (t 3 + ta 28),
    c 4 ≔ clip (t 4 + t 27),
    c 5 ≔ clip (t 5 + ta 26),
    c 6 ≔ clip (t 6 + t 25),
    c 7 ≔ clip (t 7 + ta 24),
    c 8 ≔ clip (t 8 + ta 23),
    c 9 ≔ clip (t 9 + t 22),
    c 10 ≔ clip (t 10 + ta 21),
    c 11 ≔ clip (t 11 + t 20),
    c 12 ≔ clip (t 12 + ta 19),
    c 13 ≔ clip (t 13 + t 18),
    c 14 ≔ clip (t 14 + ta 17),
    c 15 ≔ clip (t 15 + t 16),
    c 16 ≔ clip (t 15 - t 16),
    c 17 ≔ clip (t 14 - ta 17),
    c 18 ≔ clip (t 13 - t 18),
    c 19 ≔ clip (t 12 - ta 19),
    c 20 ≔ clip (t 11 - t 20),
    c 21 ≔ clip (t 10 - ta 21),
    c 22 ≔ clip (t 9 - t 22),
    c 23 ≔ clip (t 8 - ta 23),
    c 24 ≔ clip (t 7 - ta 24),
    c 25 ≔ clip (t 6 - t 25),
    c 26 ≔ clip (t 5 - ta 26),
    c 27 ≔ clip (t 4 - t 27),
    c 28 ≔ clip (t 3 - ta 28),
    c 29 ≔ clip (t 2 - t 29),
    c 30 ≔ clip (t 1 - ta 30),
    c 31 ≔ clip (t 0 - t 31)]

/-- inv_dct64_1d_c, src/itx_1d.c:436-781. -/
def dct64 : Prog :=
  stride2 (dct32 true) ++
  [
    i 1 ≔ c 1,
    i 3 ≔ c 3,
    i 5 ≔ c 5,
    i 7 ≔ c 7,
    i 9 ≔ c 9,
    i 11 ≔ c 11,
    i 13 ≔ c 13,
    i 15 ≔ c 15,
    i 17 ≔ c 17,
    i 19 ≔ c 19,
    i 21 ≔ c 21,
    i 23 ≔ c 23,
    i 25 ≔ c 25,
    i 27 ≔ c 27,
    i 29 ≔ c 29,
    i 31 ≔ c 31,
    ta 32 ≔ (i 1 ** 101 + 2048) >>> 12,
    ta 33 ≔ (i 31 ** (-2824) + 2048) >>> 12,
    ta 34 ≔ (i 17 ** 1660 + 2048) >>> 12,
    ta 35 ≔ (i 15 ** (-1474) + 2048) >>> 12,
    ta 36 ≔ (i 9 ** 897 + 2048) >>> 12,
    ta 37 ≔ (i 23 ** (-2191) + 2048) >>> 12,
    ta 38 ≔ (i 25 ** 2359 + 2048) >>> 12,
    ta 39 ≔ (i 7 ** (-700) + 2048) >>> 12,
    ta 40 ≔ (i 5 ** 501 + 2048) >>> 12,
    ta 41 ≔ (i 27 ** (-2520) + 2048) >>> 12,
    ta 42 ≔ (i 21 ** 2019 + 2048) >>> 12,
    ta 43 ≔ (i 11 ** (-1092) + 2048) >>> 12,
    ta 44 ≔ (i 13 ** 1285 + 2048) >>> 12,
    ta 45 ≔ (i 19 ** (-1842) + 2048) >>> 12,
    ta 46 ≔ (i 29 ** 2675 + 2048) >>> 12,
    ta 47 ≔ (i 3 ** (-301) + 2048) >>> 12,
    ta 48 ≔ (i 3 ** 4085 + 2048) >>> 12,
    ta 49 ≔ (i 29 ** 3102 + 2048) >>> 12,
    ta 50 ≔ (i 19 ** 3659 + 2048) >>> 12,
    ta 51 ≔ (i 13 ** 3889 + 2048) >>> 12,
    ta 52 ≔ (i 11 ** 3948 + 2048) >>> 12,
    ta 53 ≔ (i 21 ** 3564 + 2048) >>> 12,
    ta 54 ≔ (i 27 ** 3229 + 2048) >>> 12,
    ta 55 ≔ (i 5 ** 4065 + 2048) >>> 12,
    ta 56 ≔ (i 7 ** 4036 + 2048) >>> 12,
    ta 57 ≔ (i 25 ** 3349 + 2048) >>> 12,
    ta 58 ≔ (i 23 ** 3461 + 2048) >>> 12,
    ta 59 ≔ (i 9 ** 3996 + 2048) >>> 12,
    ta 60 ≔ (i 15 ** 3822 + 2048) >>> 12,
    ta 61 ≔ (i 17 ** 3745 + 2048) >>> 12,
    ta 62 ≔ (i 31 ** 2967 + 2048) >>> 12,
    ta 63 ≔ (i 1 ** 4095 + 2048) >>> 12,
    t 32 ≔ clip (ta 32 + ta 33),
    t 33 ≔ clip (ta 32 - ta 33),
    t 34 ≔ clip (ta 35 - ta 34),
    t 35 ≔ clip (ta 35 + ta 34),
    t 36 ≔ clip (ta 36 + ta 37),
    t 37 ≔ clip (ta 36 - ta 37),
    t 38 ≔ clip (ta 39 - ta 38),
    t 39 ≔ clip (ta 39 + ta 38),
    t 40 ≔ clip (ta 40 + ta 41),
    t 41 ≔ clip (ta 40 - ta 41),
    t 42 ≔ clip (ta 43 - ta 42),
    t 43 ≔ clip (ta 43 + ta 42),
    t 44 ≔ clip (ta 44 + ta 45),
    t 45 ≔ clip (ta 44 - ta 45),
    t 46 ≔ clip (ta 47 - ta 46),
    t 47 ≔ clip (ta 47 + ta 46),
    t 48 ≔ clip (ta 48 + ta 49),
    t 49 ≔ clip (ta 48 - ta 49),
    t 50 ≔ clip (ta 51 - ta 50),
    t 51 ≔ clip (ta 51 + ta 50),
    t 52 ≔ clip (ta 52 + ta 53),
    t 53 ≔ clip (ta 52 - ta 53),
    t 54 ≔ clip (ta 55 - ta 54),
    t 55 ≔ clip (ta 55 + ta 54),
    t 56 ≔ clip (ta 56 + ta 57),
    t 57 ≔ clip (ta 56 - ta 57),
    t 58 ≔ clip (ta 59 - ta 58),
    t 59 ≔ clip (ta 59 + ta 58),
    t 60 ≔ clip (ta 60 + ta 61),
    t 61 ≔ clip (ta 60 - ta 61),
    t 62 ≔ clip (ta 63 - ta 62),
    t 63 ≔ clip (ta 63 + ta 62),
    ta 33 ≔ ((t 33 ** (4096 - 4076) + t 62 ** 401 + 2048) >>> 12) - t 33,
    ta 34 ≔ ((t 34 ** (-401) + t 61 ** (4096 - 4076) + 2048) >>> 12) - t 61,
    ta 37 ≔ (t 37 ** (-1299) + t 58 ** 1583 + 1024) >>> 11,
    ta 38 ≔ (t 38 ** (-1583) + t 57 ** (-1299) + 1024) >>> 11,
    ta 41 ≔ ((t 41 ** (4096 - 3612) + t 54 ** 1931 + 2048) >>> 12) - t 41,
    ta 42 ≔ ((t 42 ** (-1931) + t 53 ** (4096 - 3612) + 2048) >>> 12) - t 53,
    ta 45 ≔ ((t 45 ** (-1189) + t 50 ** (3920 - 4096) + 2048) >>> 12) + t 50,
    ta 46 ≔ ((t 46 ** (4096 - 3920) + t 49 ** (-1189) + 2048) >>> 12) - t 46,
    ta 49 ≔ ((t 46 ** (-1189) + t 49 ** (3920 - 4096) + 2048) >>> 12) + t 49,
    ta 50 ≔ ((t 45 ** (3920 - 4096) + t 50 ** 1189 + 2048) >>> 12) + t 45,
    ta 53 ≔ ((t 42 ** (4096 - 3612) + t 53 ** 1931 + 2048) >>> 12) - t 42,
    ta 54 ≔ ((t 41 ** 1931 + t 54 ** (3612 - 4096) + 2048) >>> 12) + t 54,
    ta 57 ≔ (t 38 ** (-1299) + t 57 ** 1583 + 1024) >>> 11,
    ta 58 ≔ (t 37 ** 1583 + t 58 ** 1299 + 1024) >>> 11,
    ta 61 ≔ ((t 34 ** (4096 - 4076) + t 61 ** 401 + 2048) >>> 12) - t 34,
    ta 62 ≔ ((t 33 ** 401 + t 62 ** (4076 - 4096) + 2048) >>> 12) + t 62,
    ta 32 ≔ clip (t 32 + t 35),
    t 33 ≔ clip (ta 33 + ta 34),
    t 34 ≔ clip (ta 33 - ta 34),
    ta 35 ≔ clip (t 32 - t 35),
    ta 36 ≔ clip (t 39 - t 36),
    t 37 ≔ clip (ta 38 - ta 37),
    t 38 ≔ clip (ta 38 + ta 37),
    ta 39 ≔ clip (t 39 + t 36),
    ta 40 ≔ clip (t 40 + t 43),
    t 41 ≔ clip (ta 41 + ta 42),
    t 42 ≔ clip (ta 41 - ta 42),
    ta 43 ≔ clip (t 40 - t 43),
    ta 44 ≔ clip (t 47 - t 44),
    t 45 ≔ clip (ta 46 - ta 45),
    t 46 ≔ clip (ta 46 + ta 45),
    ta 47 ≔ clip (t 47 + t 44),
    ta 48 ≔ clip (t 48 + t 51),
    t 49 ≔ clip (ta 49 + ta 50),
    t 50 ≔ clip (ta 49 - ta 50),
    ta 51 ≔ clip (t 48 - t 51),
    ta 52 ≔ clip (t 55 - t 52),
    t 53 ≔ clip (ta 54 - ta 53),
    t 54 ≔ clip (ta 54 + ta 53),
    ta 55 ≔ clip (t 55 + t 52),
    ta 56 ≔ clip (t 56 + t 59),
    t 57 ≔ clip (ta 57 + ta 58),
    t 58 ≔ clip (ta 57 - ta 58),
    ta 59 ≔ clip (t 56 - t 59),
    ta 60 ≔ clip (t 63 - t 60),
    t 61 ≔ clip (ta 62 - ta 61),
    t 62 ≔ clip (ta 62 + ta 61),
    ta 63 ≔ clip (t 63 + t 60),
    ta 34 ≔ ((t 34 ** (4096 - 4017) + t 61 ** 799 + 2048) >>> 12) - t 34,
    t 35 ≔ ((ta 35 ** (4096 - 4017) + ta 60 ** 799 + 2048) >>> 12) - ta 35,
    t 36 ≔ ((ta 36 ** (-799) + ta 59 ** (4096 - 4017) + 2048) >>> 12) - ta 59,
    ta 37 ≔ ((t 37 ** (-799) + t 58 ** (4096 - 4017) + 2048) >>> 12) - t 58,
    ta 42 ≔ (t 42 ** (-1138) + t 53 ** 1703 + 1024) >>> 11,
    t 43 ≔ (ta 43 ** (-1138) + ta 52 ** 1703 + 1024) >>> 11,
    t 44 ≔ (ta 44 ** (-1703) + ta 51 ** (-1138) + 1024) >>> 11,
    ta 45 ≔ (t 45 ** (-1703) + t 50 ** (-1138) + 1024) >>> 11,
    ta 50 ≔ (t 45 ** (-1138) + t 50 ** 1703 + 1024) >>> 11,
    t 51 ≔ (ta 44 ** (-1138) + ta 51 ** 1703 + 1024) >>> 11,
    t 52 ≔ (ta 43 ** 1703 + ta 52 ** 1138 + 1024) >>> 11,
    ta 53 ≔ (t 42 ** 1703 + t 53 ** 1138 + 1024) >>> 11,
    ta 58 ≔ ((t 37 ** (4096 - 4017) + t 58 ** 799 + 2048) >>> 12) - t 37,
    t 59 ≔ ((ta 36 ** (4096 - 4017) + ta 59 ** 799 + 2048) >>> 12) - ta 36,
    t 60 ≔ ((ta 35 ** 799 + ta 60 ** (4017 - 4096) + 2048) >>> 12) + ta 60,
    ta 61 ≔ ((t 34 ** 799 + t 61 ** (4017 - 4096) + 2048) >>> 12) + t 61,
    t 32 ≔ clip (ta 32 + ta 39),
    ta 33 ≔ clip (t 33 + t 38),
    t 34 ≔ clip (ta 34 + ta 37),
    ta 35 ≔ clip (t 35 + t 36),
    ta 36 ≔ clip (t 35 - t 36),
    t 37 ≔ clip (ta 34 - ta 37),
    ta 38 ≔ clip (t 33 - t 38),
    t 39 ≔ clip (ta 32 - ta 39),
    t 40 ≔ clip (ta 47 - ta 40),
    ta 41 ≔ clip (t 46 - t 41),
    t 42 ≔ clip (ta 45 - ta 42),
    ta 43 ≔ clip (t 44 - t 43),
    ta 44 ≔ clip (t 44 + t 43),
    t 45 ≔ clip (ta 45 + ta 42),
    ta 46 ≔ clip (t 46 + t 41),
    t 47 ≔ clip (ta 47 + ta 40),
    t 48 ≔ clip (ta 48 + ta 55),
    ta 49 ≔ clip (t 49 + t 54),
    t 50 ≔ clip (ta 50 + ta 53),
    ta 51 ≔ clip (t 51 + t 52),
    ta 52 ≔ clip (t 51 - t 52),
    t 53 ≔ clip (ta 50 - ta 53),
    ta 54 ≔ clip (t 49 - t 54),
    t 55 ≔ clip (ta 48 - ta 55),
    t 56 ≔ clip (ta 63 - ta 56),
    ta 57 ≔ clip (t 62 - t 57),
    t 58 ≔ clip (ta 61 - ta 58),
    ta 59 ≔ clip (t 60 - t 59),
    ta 60 ≔ clip (t 60 + t 59),
    t 61 ≔ clip (ta 61 + ta 58),
    ta 62 ≔ clip (t 62 + t 57),
    t 63 ≔ clip (ta 63 + ta 56),
    t 36 ≔ ((ta 36 ** (4096 - 3784) + ta 59 ** 1567 + 2048) >>> 12) - ta 36,
    ta 37 ≔ ((t 37 ** (4096 - 3784) + t 58 ** 1567 + 2048) >>> 12) - t 37,
    t 38 ≔ ((ta 38 ** (4096 - 3784) + ta 57 ** 1567 + 2048) >>> 12) - ta 38,
    ta 39 ≔ ((t 39 ** (4096 - 3784) + t 56 ** 1567 + 2048) >>> 12) - t 39,
    ta 40 ≔ ((t 40 ** (-1567) + t 55 ** (4096 - 3784) + 2048) >>> 12) - t 55,
    t 41 ≔ ((ta 41 ** (-1567) + ta 54 ** (4096 - 3784) + 2048) >>> 12) - ta 54,
    ta 42 ≔ ((t 42 ** (-1567) + t 53 ** (4096 - 3784) + 2048) >>> 12) - t 53,
    t 43 ≔ ((ta 43 ** (-1567) + ta 52 ** (4096 - 3784) + 2048) >>> 12) - ta 52,
    t 52 ≔ ((ta 43 ** (4096 - 3784) + ta 52 ** 1567 + 2048) >>> 12) - ta 43,
    ta 53 ≔ ((t 42 ** (4096 - 3784) + t 53 ** 1567 + 2048) >>> 12) - t 42,
    t 54 ≔ ((ta 41 ** (4096 - 3784) + ta 54 ** 1567 + 2048) >>> 12) - ta 41,
    ta 55 ≔ ((t 40 ** (4096 - 3784) + t 55 ** 1567 + 2048) >>> 12) - t 40,
    ta 56 ≔ ((t 39 ** 1567 + t 56 ** (3784 - 4096) + 2048) >>> 12) + t 56,
    t 57 ≔ ((ta 38 ** 1567 + ta 57 ** (3784 - 4096) + 2048) >>> 12) + ta 57,
    ta 58 ≔ ((t 37 ** 1567 + t 58 ** (3784 - 4096) + 2048) >>> 12) + t 58,
    t 59 ≔ ((ta 36 ** 1567 + ta 59 ** (3784 - 4096) + 2048) >>> 12) + ta 59,
    ta 32 ≔ clip (t 32 + t 47),
    t 33 ≔ clip (ta 33 + ta 46),
    ta 34 ≔ clip (t 34 + t 45),
    t 35 ≔ clip (ta 35 + ta 44),
    ta 36 ≔ clip (t 36 + t 43),
    t 37 ≔ clip (ta 37 + ta 42),
    ta 38 ≔ clip (t 38 + t 41),
    t 39 ≔ clip (ta 39 + ta 40),
    t 40 ≔ clip (ta 39 - ta 40),
    ta 41 ≔ clip (t 38 - t 41),
    t 42 ≔ clip (ta 37 - ta 42),
    ta 43 ≔ clip (t 36 - t 43),
    t 44 ≔ clip (ta 35 - ta 44),
    ta 45 ≔ clip (t 34 - t 45),
    t 46 ≔ clip (ta 33 - ta 46),
    ta 47 ≔ clip (t 32 - t 47),
    ta 48 ≔ clip (t 63 - t 48),
    t 49 ≔ clip (ta 62 - ta 49),
    ta 50 ≔ clip (t 61 - t 50),
    t 51 ≔ clip (ta 60 - ta 51),
    ta 52 ≔ clip (t 59 - t 52),
    t 53 ≔ clip (ta 58 - ta 53),
    ta 54 ≔ clip (t 57 - t 54),
    t 55 ≔ clip (ta 56 - ta 55),
    t 56 ≔ clip (ta 56 + ta 55),
    ta 57 ≔ clip (t 57 + t 54),
    t 58 ≔ clip (ta 58 + ta 53),
    ta 59 ≔ clip (t 59 + t 52),
    t 60 ≔ clip (ta 60 + ta 51),
    ta 61 ≔ clip (t 61 + t 50),
    t 62 ≔ clip (ta 62 + ta 49),
    ta 63 ≔ clip (t 63 + t 48),
    ta 40 ≔ ((t 55 - t 40) ** 181 + 128) >>> 8,
    t 41 ≔ ((ta 54 - ta 41) ** 181 + 128) >>> 8,
    ta 42 ≔ ((t 53 - t 42) ** 181 + 128) >>> 8,
    t 43 ≔ ((ta 52 - ta 43) ** 181 + 128) >>> 8,
    ta 44 ≔ ((t 51 - t 44) ** 181 + 128) >>> 8,
    t 45 ≔ ((ta 50 - ta 45) ** 181 + 128) >>> 8,
    ta 46 ≔ ((t 49 - t 46) ** 181 + 128) >>> 8,
    t 47 ≔ ((ta 48 - ta 47) ** 181 + 128) >>> 8,
    t 48 ≔ ((ta 47 + ta 48) ** 181 + 128) >>> 8,
    ta 49 ≔ ((t 46 + t 49) ** 181 + 128) >>> 8,
    t 50 ≔ ((ta 45 + ta 50) ** 181 + 128) >>> 8,
    ta 51 ≔ ((t 44 + t 51) ** 181 + 128) >>> 8,
    t 52 ≔ ((ta 43 + ta 52) ** 181 + 128) >>> 8,
    ta 53 ≔ ((t 42 + t 53) ** 181 + 128) >>> 8,
    t 54 ≔ ((ta 41 + ta 54) ** 181 + 128) >>> 8,
    ta 55 ≔ ((t 40 + t 55) ** 181 + 128) >>> 8,
    t 0 ≔ c 0,
    t 1 ≔ c 2,
    t 2 ≔ c 4,
    t 3 ≔ c 6,
    t 4 ≔ c 8,
    t 5 ≔ c 10,
    t 6 ≔ c 12,
    t 7 ≔ c 14,
    t 8 ≔ c 16,
    t 9 ≔ c 18,
    t 10 ≔ c 20,
    t 11 ≔ c 22,
    t 12 ≔ c 24,
    t 13 ≔ c 26,
    t 14 ≔ c 28,
    t 15 ≔ c 30,
    t 16 ≔ c 32,
    t 17 ≔ c 34,
    t 18 ≔ c 36,
    t 19 ≔ c 38,
    t 20 ≔ c 40,
    t 21 ≔ c 42,
    t 22 ≔ c 44,
    t 23 ≔ c 46,
    t 24 ≔ c 48,
    t 25 ≔ c 50,
    t 26 ≔ c 52,
    t 27 ≔ c 54,
    t 28 ≔ c 56,
    t 29 ≔ c 58,
    t 30 ≔ c 60,
    t 31 ≔ c 62,
    c 0 ≔ clip (t 0 + ta 63),
    c 1 ≔ clip (t 1 + t 62),
    c 2 ≔ clip (t 2 + ta 61),
    c 3 ≔ clip (t 3 + t 60),
    c 4 ≔ clip (t 4 + ta 59),
    c 5 ≔ clip (t 5 + t 58),
    c 6 ≔ clip (t 6 + ta 57),
    c 7 ≔ clip (t 7 + t 56),
    c 8 ≔ clip (t 8 + ta 55),
    c 9 ≔ clip (t 9 + t 54),
    c 10 ≔ clip (t 10 + ta 53),
    c 11 ≔ clip (t 11 + t 52),
    c 12 ≔ clip (t 12 + ta 51),
    c 13 ≔ clip (t 13 + t 50),
    c 14 ≔ clip (t 14 + ta 49),
    c 15 ≔ clip (t 15 + t 48),
    c 16 ≔ clip (t 16 + t 47),
    c 17 ≔ clip (t 17 + ta 46),
    c 18 ≔ clip (t 18 + t 45),
    c 19 ≔ clip (t 19 + ta 44),
    c 20 ≔ clip (t 20 + t 43),
    c 21 ≔ clip (t 21 + ta 42),
    c 22 ≔ clip (t 22 + t 41),
    c 23 ≔ clip (t 23 + ta 40),
    c 24 ≔ clip (t 24 + t 39),
    c 25 ≔ clip (t 25 + ta 38),
    c 26 ≔ clip (t 26 + t 37),
    c 27 ≔ clip (t 27 + ta 36),
    c 28 ≔ clip (t 28 + t 35),
    c 29 ≔ clip (t 29 + ta 34),
    c 30 ≔ clip (t 30 + t 33),
    c 31 ≔ clip (t 31 + ta 32),
    c 32 ≔ clip (t 31 - ta 32),
    c 33 ≔ clip (t 30 - t 33),
    c 34 ≔ clip (t 29 - ta 34),
    c 35 ≔ clip (t 28 - t 35),
    c 36 ≔ clip (t 27 - ta 36),
    c 37 ≔ clip (t 26 - t 37),
    c 38 ≔ clip (t 25 - ta 38),
    c 39 ≔ clip (t 24 - t 39),
    c 40 ≔ clip (t 23 - ta 40),
    c 41 ≔ clip (t 22 - t 41),
    c 42 ≔ clip (t 21 - ta 42),
    c 43 ≔ clip (t 20 - t 43),
    c 44 ≔ clip (t 19 - ta 44),
    c 45 ≔ clip (t 18 - t 45),
    c 46 ≔ clip (t 17 - ta 46),
    c 47 ≔ clip (t 16 - t 47),
    c 48 ≔ clip (t 15 - t 48),
    c 49 ≔ clip (t 14 - ta 49),
    c 50 ≔ clip (t 13 - t 50),
    c 51 ≔ clip (t 12 - ta 51),
    c 52 ≔ clip (t 11 - t 52),
    c 53 ≔ clip (t 10 - ta 53),
    c 54 ≔ clip (t 9 - t 54),
    c 55 ≔ clip (t 8 - ta 55),
    c 56 ≔ clip (t 7 - t 56),
    c 57 ≔ clip (t 6 - ta 57),
    c 58 ≔ clip (t 5 - t 58),
    c 59 ≔ clip (t 4 - ta 59),
    c 60 ≔ clip (t 3 - t 60),
    c 61 ≔ clip (t 2 - ta 61),
    c 62 ≔ clip (t 1 - t 62),
    c 63 ≔ clip (t 0 - ta 63)]

/-- inv_adst4_1d_internal_c, src/itx_1d.c:783-802. `o n` is `out[n * out_s]`. -/
def adst4 (o : Nat → E) : Prog :=
  [
    i 0 ≔ c 0,
    i 1 ≔ c 1,
    i 2 ≔ c 2,
    i 3 ≔ c 3,
    o 0 ≔ ((i 0 ** 1321 + i 2 ** (3803 - 4096) + i 3 ** (2482 - 4096) + i 1 ** (3344 - 4096) + 2048) >>> 12) + i 2 + i 3 + i 1,
    o 1 ≔ ((i 0 ** (2482 - 4096) - i 2 ** 1321 - i 3 ** (3803 - 4096) + i 1 ** (3344 - 4096) + 2048) >>> 12) + i 0 - i 3 + i 1,
    o 2 ≔ ((i 0 - i 2 + i 3) ** 209 + 128) >>> 8,
    o 3 ≔ ((i 0 ** (3803 - 4096) + i 2 ** (2482 - 4096) - i 3 ** 1321 - i 1 ** (3344 - 4096) + 2048) >>> 12) + i 0 + i 2 - i 1]

/-- inv_adst8_1d_internal_c, src/itx_1d.c:804-851. `o n` is `out[n * out_s]`. -/
def adst8 (o : Nat → E) : Prog :=
  [
    i 0 ≔ c 0,
    i 1 ≔ c 1,
    i 2 ≔ c 2,
    i 3 ≔ c 3,
    i 4 ≔ c 4,
    i 5 ≔ c 5,
    i 6 ≔ c 6,
    i 7 ≔ c 7,
    ta 0 ≔ ((i 7 ** (4076 - 4096) + i 0 ** 401 + 2048) >>> 12) + i 7,
    ta 1 ≔ ((i 7 ** 401 - i 0 ** (4076 - 4096) + 2048) >>> 12) - i 0,
    ta 2 ≔ ((i 5 ** (3612 - 4096) + i 2 ** 1931 + 2048) >>> 12) + i 5,
    ta 3 ≔ ((i 5 ** 1931 - i 2 ** (3612 - 4096) + 2048) >>> 12) - i 2,
    ta 4 ≔ (i 3 ** 1299 + i 4 ** 1583 + 1024) >>> 11,
    ta 5 ≔ (i 3 ** 1583 - i 4 ** 1299 + 1024) >>> 11,
    ta 6 ≔ ((i 1 ** 1189 + i 6 ** (3920 - 4096) + 2048) >>> 12) + i 6,
    ta 7 ≔ ((i 1 ** (3920 - 4096) - i 6 ** 1189 + 2048) >>> 12) + i 1,
    t 0 ≔ clip (ta 0 + ta 4),
    t 1 ≔ clip (ta 1 + ta 5),
    t 2 ≔ clip (ta 2 + ta 6),
    t 3 ≔ clip (ta 3 + ta 7),
    t 4 ≔ clip (ta 0 - ta 4),
    t 5 ≔ clip (ta 1 - ta 5),
    t 6 ≔ clip (ta 2 - ta 6),
    t 7 ≔ clip (ta 3 - ta 7),
    ta 4 ≔ ((t 4 ** (3784 - 4096) + t 5 ** 1567 + 2048) >>> 12) + t 4,
    ta 5 ≔ ((t 4 ** 1567 - t 5 ** (3784 - 4096) + 2048) >>> 12) - t 5,
    ta 6 ≔ ((t 7 ** (3784 - 4096) - t 6 ** 1567 + 2048) >>> 12) + t 7,
    ta 7 ≔ ((t 7 ** 1567 + t 6 ** (3784 - 4096) + 2048) >>> 12) + t 6,
    o 0 ≔ clip (t 0 + t 2),
    o 7 ≔ -(clip (t 1 + t 3)),
    t 2 ≔ clip (t 0 - t 2),
    t 3 ≔ clip (t 1 - t 3),
    o 1 ≔ -(clip (ta 4 + ta 6)),
    o 6 ≔ clip (ta 5 + ta 7),
    t 6 ≔ clip (ta 4 - ta 6),
    t 7 ≔ clip (ta 5 - ta 7),
    o 3 ≔ -(((t 2 + t 3) ** 181 + 128) >>> 8),
    o 4 ≔ ((t 2 - t 3) ** 181 + 128) >>> 8,
    o 2 ≔ ((t 6 + t 7) ** 181 + 128) >>> 8,
    o 5 ≔ -(((t 6 - t 7) ** 181 + 128) >>> 8)]

/-- inv_adst16_1d_internal_c, src/itx_1d.c:853-962. `o n` is `out[n * out_s]`. -/
def adst16 (o : Nat → E) : Prog :=
  [
    i 0 ≔ c 0,
    i 1 ≔ c 1,
    i 2 ≔ c 2,
    i 3 ≔ c 3,
    i 4 ≔ c 4,
    i 5 ≔ c 5,
    i 6 ≔ c 6,
    i 7 ≔ c 7,
    i 8 ≔ c 8,
    i 9 ≔ c 9,
    i 10 ≔ c 10,
    i 11 ≔ c 11,
    i 12 ≔ c 12,
    i 13 ≔ c 13,
    i 14 ≔ c 14,
    i 15 ≔ c 15,
    t 0 ≔ ((i 15 ** (4091 - 4096) + i 0 ** 201 + 2048) >>> 12) + i 15,
    t 1 ≔ ((i 15 ** 201 - i 0 ** (4091 - 4096) + 2048) >>> 12) - i 0,
    t 2 ≔ ((i 13 ** (3973 - 4096) + i 2 ** 995 + 2048) >>> 12) + i 13,
    t 3 ≔ ((i 13 ** 995 - i 2 ** (3973 - 4096) + 2048) >>> 12) - i 2,
    t 4 ≔ ((i 11 ** (3703 - 4096) + i 4 ** 1751 + 2048) >>> 12) + i 11,
    t 5 ≔ ((i 11 ** 1751 - i 4 ** (3703 - 4096) + 2048) >>> 12) - i 4,
    t 6 ≔ (i 9 ** 1645 + i 6 ** 1220 + 1024) >>> 11,
    t 7 ≔ (i 9 ** 1220 - i 6 ** 1645 + 1024) >>> 11,
    t 8 ≔ ((i 7 ** 2751 + i 8 ** (3035 - 4096) + 2048) >>> 12) + i 8,
    t 9 ≔ ((i 7 ** (3035 - 4096) - i 8 ** 2751 + 2048) >>> 12) + i 7,
    t 10 ≔ ((i 5 ** 2106 + i 10 ** (3513 - 4096) + 2048) >>> 12) + i 10,
    t 11 ≔ ((i 5 ** (3513 - 4096) - i 10 ** 2106 + 2048) >>> 12) + i 5,
    t 12 ≔ ((i 3 ** 1380 + i 12 ** (3857 - 4096) + 2048) >>> 12) + i 12,
    t 13 ≔ ((i 3 ** (3857 - 4096) - i 12 ** 1380 + 2048) >>> 12) + i 3,
    t 14 ≔ ((i 1 ** 601 + i 14 ** (4052 - 4096) + 2048) >>> 12) + i 14,
    t 15 ≔ ((i 1 ** (4052 - 4096) - i 14 ** 601 + 2048) >>> 12) + i 1,
    ta 0 ≔ clip (t 0 + t 8),
    ta 1 ≔ clip (t 1 + t 9),
    ta 2 ≔ clip (t 2 + t 10),
    ta 3 ≔ clip (t 3 + t 11),
    ta 4 ≔ clip (t 4 + t 12),
    ta 5 ≔ clip (t 5 + t 13),
    ta 6 ≔ clip (t 6 + t 14),
    ta 7 ≔ clip (t 7 + t 15),
    ta 8 ≔ clip (t 0 - t 8),
    ta 9 ≔ clip (t 1 - t 9),
    ta 10 ≔ clip (t 2 - t 10),
    ta 11 ≔ clip (t 3 - t 11),
    ta 12 ≔ clip (t 4 - t 12),
    ta 13 ≔ clip (t 5 - t 13),
    ta 14 ≔ clip (t 6 - t 14),
    ta 15 ≔ clip (t 7 - t 15),
    t 8 ≔ ((ta 8 ** (4017 - 4096) + ta 9 ** 799 + 2048) >>> 12) + ta 8,
    t 9 ≔ ((ta 8 ** 799 - ta 9 ** (4017 - 4096) + 2048) >>> 12) - ta 9,
    t 10 ≔ ((ta 10 ** 2276 + ta 11 ** (3406 - 4096) + 2048) >>> 12) + ta 11,
    t 11 ≔ ((ta 10 ** (3406 - 4096) - ta 11 ** 2276 + 2048) >>> 12) + ta 10,
    t 12 ≔ ((ta 13 ** (4017 - 4096) - ta 12 ** 799 + 2048) >>> 12) + ta 13,
    t 13 ≔ ((ta 13 ** 799 + ta 12 ** (4017 - 4096) + 2048) >>> 12) + ta 12,
    t 14 ≔ ((ta 15 ** 2276 - ta 14 ** (3406 - 4096) + 2048) >>> 12) - ta 14,
    t 15 ≔ ((ta 15 ** (3406 - 4096) + ta 14 ** 2276 + 2048) >>> 12) + ta 15,
    t 0 ≔ clip (ta 0 + ta 4),
    t 1 ≔ clip (ta 1 + ta 5),
    t 2 ≔ clip (ta 2 + ta 6),
    t 3 ≔ clip (ta 3 + ta 7),
    t 4 ≔ clip (ta 0 - ta 4),
    t 5 ≔ clip (ta 1 - ta 5),
    t 6 ≔ clip (ta 2 - ta 6),
    t 7 ≔ clip (ta 3 - ta 7),
    ta 8 ≔ clip (t 8 + t 12),
    ta 9 ≔ clip (t 9 + t 13),
    ta 10 ≔ clip (t 10 + t 14),
    ta 11 ≔ clip (t 11 + t 15),
    ta 12 ≔ clip (t 8 - t 12),
    ta 13 ≔ clip (t 9 - t 13),
    ta 14 ≔ clip (t 10 - t 14),
    ta 15 ≔ clip (t 11 - t 15),
    ta 4 ≔ ((t 4 ** (3784 - 4096) + t 5 ** 1567 + 2048) >>> 12) + t 4,
    ta 5 ≔ ((t 4 ** 1567 - t 5 ** (3784 - 4096) + 2048) >>> 12) - t 5,
    ta 6 ≔ ((t 7 ** (3784 - 4096) - t 6 ** 1567 + 2048) >>> 12) + t 7,
    ta 7 ≔ ((t 7 ** 1567 + t 6 ** (3784 - 4096) + 2048) >>> 12) + t 6,
    t 12 ≔ ((ta 12 ** (3784 - 4096) + ta 13 ** 1567 + 2048) >>> 12) + ta 12,
    t 13 ≔ ((ta 12 ** 1567 - ta 13 ** (3784 - 4096) + 2048) >>> 12) - ta 13,
    t 14 ≔ ((ta 15 ** (3784 - 4096) - ta 14 ** 1567 + 2048) >>> 12) + ta 15,
    t 15 ≔ ((ta 15 ** 1567 + ta 14 ** (3784 - 4096) + 2048) >>> 12) + ta 14,
    o 0 ≔ clip (t 0 + t 2),
    o 15 ≔ -(clip (t 1 + t 3)),
    ta 2 ≔ clip (t 0 - t 2),
    ta 3 ≔ clip (t 1 - t 3),
    o 3 ≔ -(clip (ta 4 + ta 6)),
    o 12 ≔ clip (ta 5 + ta 7),
    t 6 ≔ clip (ta 4 - ta 6),
    t 7 ≔ clip (ta 5 - ta 7),
    o 1 ≔ -(clip (ta 8 + ta 10)),
    o 14 ≔ clip (ta 9 + ta 11),
    t 10 ≔ clip (ta 8 - ta 10),
    t 11 ≔ clip (ta 9 - ta 11),
    o 2 ≔ clip (t 12 + t 14),
    o 13 ≔ -(clip (t 13 + t 15)),
    ta 14 ≔ clip (t 12 - t 14),
    ta 15 ≔ clip (t 13 - t 15),
    o 7 ≔ -(((ta 2 + ta 3) ** 181 + 128) >>> 8),
    o 8 ≔ ((ta 2 - ta 3) ** 181 + 128) >>> 8,
    o 4 ≔ ((t 6 + t 7) ** 181 + 128) >>> 8,
    o 11 ≔ -(((t 6 - t 7) ** 181 + 128) >>> 8),
    o 6 ≔ ((t 10 + t 11) ** 181 + 128) >>> 8,
    o 9 ≔ -(((t 10 - t 11) ** 181 + 128) >>> 8),
    o 5 ≔ -(((ta 14 + ta 15) ** 181 + 128) >>> 8),
    o 10 ≔ ((ta 14 - ta 15) ** 181 + 128) >>> 8]

/-- inv_identity4_1d_c, src/itx_1d.c:983-991. -/
def identity4 : Prog := (List.range 4).flatMap fun n => [i 0 ≔ c n, c n ≔ i 0 + ((i 0 ** 1697 + 2048) >>> 12)]

/-- inv_identity8_1d_c, src/itx_1d.c:993-999. -/
def identity8 : Prog := (List.range 8).map fun n => c n ≔ c n ** 2

/-- inv_identity16_1d_c, src/itx_1d.c:1001-1009. -/
def identity16 : Prog := (List.range 16).flatMap fun n => [i 0 ≔ c n, c n ≔ i 0 ** 2 + ((i 0 ** 1697 + 1024) >>> 11)]

/-- inv_identity32_1d_c, src/itx_1d.c:1011-1017. -/
def identity32 : Prog := (List.range 32).map fun n => c n ≔ c n ** 4

/-- enum Tx1dType, src/itx_1d.h:36-42. -/
inductive Kind where
  | dct | adst | flipadst | identity
  deriving DecidableEq

/-- dav1d_tx1d_fns, src/itx_1d.c:1019-1041, with the functions of inv_adst_1d, 964-979. The size is 4, 8, 16, 32, 64; `none`
is NULL. -/
def fn : Nat → Kind → Option Prog
  | 4, .dct => some (dct4 false)
  | 4, .adst => some (adst4 c)
  | 4, .flipadst => some (adst4 fun n => c (3 - n))
  | 4, .identity => some identity4
  | 8, .dct => some (dct8 false)
  | 8, .adst => some (adst8 c)
  | 8, .flipadst => some (adst8 fun n => c (7 - n))
  | 8, .identity => some identity8
  | 16, .dct => some (dct16 false)
  | 16, .adst => some (adst16 c)
  | 16, .flipadst => some (adst16 fun n => c (15 - n))
  | 16, .identity => some identity16
  | 32, .dct => some (dct32 false)
  | 32, .identity => some identity32
  | 64, .dct => some dct64
  | _, _ => none

end Dav1d.Itx
