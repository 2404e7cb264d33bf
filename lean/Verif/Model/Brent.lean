import Verif.Model.Search

/-!
# Model of the root finder that `DistanceSolver` uses

`model/orbit/search/distancesolver.cc:104-105, 154-165` creates a `gsl_root_fsolver_brent`, sets its interval (ignoring the status returned, with the
error handler switched off, line 107) and iterates it.  The solver itself belongs to the GNU Scientific Library (roots/brent.c of GSL 2.x), which
is not part of the repository; it is modelled here statement by statement, in real numbers instead of `double`, and not checked against its
sources.  `Model/Search.lean` leaves the root finder open; nothing there depends on this file.
-/

set_option autoImplicit false

namespace Icarus
namespace Orbit

noncomputable section

open Classical

/-- `brent_state_t` -/
structure Brent where
  a : ℝ
  b : ℝ
  c : ℝ
  d : ℝ
  e : ℝ
  fa : ℝ
  fb : ℝ
  fc : ℝ

/-- `(x < 0 && y < 0) || (x > 0 && y > 0)` -/
def SameSign (x y : ℝ) : Prop := (x < 0 ∧ y < 0) ∨ (0 < x ∧ 0 < y)

/-- `brent_init`.  The state is complete before the signs are looked at; that they agree is only reported in the status, which `solve` ignores
(model/orbit/search/distancesolver.cc:157). -/
def Brent.start (f : ℝ → ℝ) (lo hi : ℝ) : Brent :=
  { a := lo, b := hi, c := hi, d := hi - lo, e := hi - lo, fa := f lo, fb := f hi, fc := f hi }

/-- `brent_iterate`, first part: `c` gets the end on the other side of the root, if there is one, and `b` the better of `b` and `c`.  The flag is
`ac_equal`. -/
def Brent.sides (s : Brent) : Brent × Bool :=
  if SameSign s.fb s.fc then ({ s with c := s.a, fc := s.fa, d := s.b - s.a, e := s.b - s.a }, true) else (s, false)

def Brent.better (s : Brent × Bool) : Brent × Bool :=
  if |s.1.fc| < |s.1.fb| then
    ({ s.1 with a := s.1.b, b := s.1.c, c := s.1.b, fa := s.1.fb, fb := s.1.fc, fc := s.1.fb }, true)
  else s

/-- `0.5 * GSL_DBL_EPSILON * fabs (b)` -/
def Brent.tol (s : Brent) : ℝ := 0.5 * 2.2204460492503131e-16 * |s.b|

/-- `0.5 * (c - b)` -/
def Brent.mid (s : Brent) : ℝ := 0.5 * (s.c - s.b)

/-- Numerator and denominator of the interpolation, before their signs are adjusted. -/
def Brent.ratio (s : Brent) (acEqual : Bool) : Outcome (ℝ × ℝ) := do
  let t ← cdiv s.fb s.fa
  if acEqual then .ok (2 * s.mid * t, 1 - t)
  else do
    let q ← cdiv s.fa s.fc
    let r ← cdiv s.fb s.fc
    .ok (t * (2 * s.mid * q * (q - r) - (s.b - s.a) * (r - 1)), (q - 1) * (r - 1) * (t - 1))

/-- The choice of `d` and `e`: interpolation or bisection. -/
def Brent.choose (s : Brent) (acEqual : Bool) : Outcome (ℝ × ℝ) :=
  if |s.e| < s.tol ∨ |s.fa| ≤ |s.fb| then .ok (s.mid, s.mid)
  else do
    let (p, q) ← s.ratio acEqual
    let (p, q) := if 0 < p then (p, -q) else (-p, q)
    if 2 * p < min (3 * s.mid * q - |s.tol * q|) |s.e * q| then do
      let d ← cdiv p q
      .ok (d, s.d)
    else .ok (s.mid, s.mid)

/-- `*x_lower` and `*x_upper` -/
def bracket (b c : ℝ) : Bracket := if b < c then ⟨b, b, c⟩ else ⟨b, c, b⟩

/-- `brent_iterate`.  The early returns leave the stored state as it was. -/
def Brent.iterate (f : ℝ → ℝ) (s : Brent) : Outcome (Brent × Bracket) :=
  let (n, acEqual) := better s.sides
  if n.fb = 0 then .ok (s, ⟨n.b, n.b, n.b⟩)
  else if |n.mid| ≤ n.tol then .ok (s, bracket n.b n.c)
  else do
    let (d, e) ← n.choose acEqual
    let b := if n.tol < |d| then n.b + d else n.b + (if 0 < n.mid then n.tol else -n.tol)
    let c := if SameSign (f b) n.fc then n.b else n.c
    .ok ({ a := n.b, b := b, c := n.c, d := d, e := e, fa := n.fb, fb := f b, fc := n.fc }, bracket b c)

/-- The state and the answers after `k + 1` iterations on the interval from `lo` to `hi`. -/
def brentRun (f : ℝ → ℝ) (lo hi : ℝ) : Nat → Outcome (Brent × Bracket)
  | 0 => (Brent.start f lo hi).iterate f
  | k + 1 => do
    let (s, _) ← brentRun f lo hi k
    s.iterate f

end

end Orbit
end Icarus
