import Mathlib.Algebra.Order.Field.Basic
import Mathlib.Algebra.Order.Group.Abs
import Mathlib.Algebra.Module.Pi
import Mathlib.Data.Nat.Cast.Order.Field

/-
Model of the Adams integrator `SGOde`: one step (src/integrators/sgode_step.cpp) and the
interpolation (src/integrators/sgode_intrp.cpp).

Simplifications: a linearly ordered field `K` stands for `double`; the arrays are functions of the
index; `sqrt`, `pow`, the Euclidean norm and the right-hand side are parameters; the counters are
natural numbers (the theorems keep `1 ≤ k`, so that the differences `k-1`, `k-2` are compared as in
the code).  Members the code leaves uninitialised (`ifail`, see `step`) are parameters, i.e.
arbitrary.
-/
namespace Verif.Sgode

variable {K : Type} [Field K] [LinearOrder K] {n : Nat}

/-- Vectors of `neqn` components. -/
abbrev Vec (K : Type) (n : Nat) := Fin n → K

/-- What the integrator calls. -/
structure Ext (K : Type) (n : Nat) where
  f : K → Vec K n → Vec K n
  norm : Vec K n → K
  sqrt : K → K
  pow : K → K → K
  /-- machine epsilon (sgode_step.cpp:7) -/
  umach : K
  /-- `gstr` (sgode_step.cpp:13-15) -/
  gstr : Nat → K
  /-- What the two uses of `tau` (sgode_step.cpp:219, 220) evaluate to, from `h`, `p`, column 14.  `tau` is
  declared `const auto` (sgode_step.cpp:218), hence an unevaluated Eigen expression, and it refers to the
  temporary returned by `p()`, which no longer exists when `tau` is used: any value is possible. -/
  tau1 : K → Vec K n → Vec K n → Vec K n
  tau2 : K → Vec K n → Vec K n → Vec K n

/-- The members of `SGOde` used by `step` and `intrp` (src/integrators/sgode.hpp 110-127). -/
structure St (K : Type) (n : Nat) where
  start : Bool
  phase1 : Bool
  nornd : Bool
  kold : Nat
  k : Nat
  ns : Nat
  phi : Nat → Vec K n
  wt : Vec K n
  p : Vec K n
  yy : Vec K n
  yp : Vec K n
  ypout : Vec K n
  psi : Nat → K
  alpha : Nat → K
  beta : Nat → K
  v : Nat → K
  w : Nat → K
  sig : Nat → K
  g : Nat → K
  h : K
  hold : K
  x : K

/-- `a[i] = b`. -/
def put {A : Type} (a : Nat → A) (i : Nat) (b : A) : Nat → A := fun j => if j = i then b else a j

/-- `std::copysign(a, b)` (a zero `b` counts as positive). -/
def copysign (a b : K) : K := if 0 ≤ b then |a| else -|a|

/-- Componentwise quotient. -/
def quot (a b : Vec K n) : Vec K n := fun i => a i / b i

/-! ### Block 1: coefficients -/

/-- The arrays changed by the loop of sgode_step.cpp:106-114, and `tmp1`. -/
structure Coef (K : Type) where
  psi : Nat → K
  beta : Nat → K
  alpha : Nat → K
  sig : Nat → K
  tmp1 : K

/-- Lines 106-114, `m` iterations from index `i` on. -/
def coefLoop (h : K) : Nat → Nat → Coef K → Coef K
  | 0, _, c => c
  | m + 1, i, c =>
    let tmp2 := c.psi (i - 1)
    let psi := put c.psi (i - 1) c.tmp1
    let beta := put c.beta i (c.beta (i - 1) * psi (i - 1) / tmp2)
    let tmp1 := tmp2 + h
    let alpha := put c.alpha i (h / tmp1)
    let sig := put c.sig (i + 1) (((i : K) + 1) * (alpha i * c.sig i))
    coefLoop h m (i + 1) ⟨psi, beta, alpha, sig, tmp1⟩

/-- Lines 144-151: `m` iterations downwards from index `i`, `j` upwards. -/
def diagLoop (alpha : Nat → K) : Nat → Nat → Nat → (Nat → K) → (Nat → K)
  | 0, _, _, v => v
  | m + 1, i, j, v => diagLoop alpha m (i - 1) (j + 1) (put v (i - 1) (v (i - 1) - alpha j * v i))

/-- Lines 162-164 and 176-178: `a[iq] -= t * a[iq+1]` for `iq < limit` (upwards, so each reads an
entry not changed yet). -/
def shiftSub (a : Nat → K) (t : K) (limit : Nat) : Nat → K :=
  fun iq => if iq < limit then a iq - t * a (iq + 1) else a iq

/-- Lines 173-180: `m` iterations from `i` on. -/
def gLoop (alpha : Nat → K) (kp2 : Nat) : Nat → Nat → (Nat → K) → (Nat → K) → (Nat → K) × (Nat → K)
  | 0, _, w, g => (w, g)
  | m + 1, i, w, g =>
    let w := shiftSub w (alpha (i - 2)) (kp2 - i)
    gLoop alpha kp2 m (i + 1) w (put g (i - 1) (w 0))

/-- `memcpy(w(), v(), sizeof(double) * m)` (sgode_step.cpp:130, 165). -/
def copyTo (w v : Nat → K) (m : Nat) : Nat → K := fun i => if i < m then v i else w i

/-- `ns` (sgode_step.cpp:93-96). -/
def nextNs (s : St K n) : Nat :=
  let ns := if s.h ≠ s.hold then 0 else s.ns
  if ns ≤ s.kold then ns + 1 else ns

/-- The coefficient arrays after sgode_step.cpp:98-118, when `k ≥ ns`. -/
def coefs (s : St K n) (ns : Nat) : Coef K :=
  let c : Coef K := ⟨s.psi, put s.beta (ns - 1) 1, put s.alpha (ns - 1) (1 / (ns : K)), put s.sig ns 1, s.h * (ns : K)⟩
  let c := coefLoop s.h (s.k - ns) ns c
  { c with psi := put c.psi (s.k - 1) c.tmp1 }

/-- Lines 120-181: `v`, `w`, `g`. -/
def gCoefs (s : St K n) (ns : Nat) (alpha : Nat → K) : (Nat → K) × (Nat → K) × (Nat → K) :=
  let kp1 := s.k + 1
  let r : (Nat → K) × (Nat → K) × (Nat → K) :=
    if ns ≤ 1 then
      let v : Nat → K := fun iq => if iq < s.k then 1 / (((iq : K) + 1) * ((iq : K) + 2)) else s.v iq
      (v, copyTo s.w v s.k, s.g)
    else
      let v1 : Nat → K :=
        if s.k > s.kold then
          diagLoop alpha (ns - 2) (s.k - 1) 1 (put s.v (s.k - 1) (1 / ((s.k : K) * ((s.k : K) + 1))))
        else s.v
      let limit1 := kp1 - ns
      let v2 := shiftSub v1 (alpha (ns - 1)) limit1
      let w := copyTo s.w v2 limit1
      (v2, w, put s.g ns (w 0))
  let (v, w, g) := r
  let (w, g) := gLoop alpha (s.k + 2) (kp1 + 1 - (ns + 2)) (ns + 2) w g
  (v, w, g)

/-- Block 1 (sgode_step.cpp:86-182). -/
def block1 (s : St K n) : St K n :=
  let ns := nextNs s
  if s.k ≥ ns then
    let c := coefs s ns
    let (v, w, g) := gCoefs s ns c.alpha
    { s with ns := ns, psi := c.psi, beta := c.beta, alpha := c.alpha, sig := c.sig, v := v, w := w, g := g }
  else { s with ns := ns }

/-! ### Block 2: prediction and error estimates -/

/-- "Change phi to phi star" (sgode_step.cpp:193-198). -/
def phiStar (s : St K n) : Nat → Vec K n :=
  fun i => if s.ns ≤ i ∧ i < s.k then s.beta i • s.phi i else s.phi i

/-- Lines 210-214: indices `m-1` down to 0. -/
def predict (g : Nat → K) : Nat → Vec K n → (Nat → Vec K n) → Vec K n × (Nat → Vec K n)
  | 0, p, phi => (p, phi)
  | m + 1, p, phi => predict g m (p + g m • phi m) (put phi m (phi m + phi (m + 1)))

/-- The differences shifted and cleared (sgode_step.cpp:202-203). -/
def shifted (s : St K n) : Nat → Vec K n :=
  put (put (phiStar s) (s.k + 1) (phiStar s s.k)) s.k 0

/-- The error estimates (sgode_step.cpp:232-258) and the order wanted so far (sgode_step.cpp:258-270). -/
structure Est (K : Type) where
  erkm1 : K
  erk : K
  err : K
  absh : K
  knew : Nat

/-- Lines 193-230: phi star, prediction, new abscissa, derivative there. -/
def predicted (e : Ext K n) (s : St K n) : St K n :=
  let (p, phi) := predict s.g s.k 0 (shifted s)
  let (p, phi) :=
    if s.nornd then (s.yy + s.h • p, phi)
    else
      let p' := s.yy + e.tau1 s.h p (phi 14)
      (p', put phi 15 ((p' - s.yy) - e.tau2 s.h p (phi 14)))
  let x := s.x + s.h
  { s with p := p, phi := phi, x := x, yp := e.f x p }

/-- Lines 232-270. -/
def estimates (e : Ext K n) (s : St K n) : Est K :=
  let absh := |s.h|
  let t4 := s.yp - s.phi 0
  let nrm := e.norm (quot t4 s.wt)
  let sq := nrm * nrm
  let erkm1 := if s.k ≥ 2 then absh * s.sig (s.k - 1) * e.gstr (s.k - 2) * e.norm (quot (s.phi (s.k - 1) + t4) s.wt) else 0
  let erkm2 := if s.k > 2 then absh * s.sig (s.k - 2) * e.gstr (s.k - 3) * e.norm (quot (s.phi (s.k - 2) + t4) s.wt) else 0
  let t5 := absh * e.sqrt sq
  let err := t5 * (s.g (s.k - 1) - s.g s.k)
  let erk := t5 * s.sig s.k * e.gstr (s.k - 1)
  let knew :=
    if s.k > 2 then (if max erkm1 erkm2 ≤ erk then s.k - 1 else s.k)
    else if s.k = 2 then (if erkm1 ≤ 1 / 2 * erk then s.k - 1 else s.k)
    else s.k
  ⟨erkm1, erk, err, absh, knew⟩

/-! ### Block 3: rejection -/

/-- Lines 287-296: restore `x`, the differences and `psi`. -/
def restored (s : St K n) (xold : K) : St K n :=
  { s with
    phase1 := false
    x := xold
    phi := fun i => if i < s.k then (1 / s.beta i) • (s.phi i - s.phi (i + 1)) else s.phi i
    psi := fun i => if i + 1 < s.k then s.psi (i + 1) - s.h else s.psi i }

/-- The factor for the step size and the order after a failure (sgode_step.cpp:301-311); `ifail` is the
count after the increment. -/
def shrink (e : Ext K n) (p5eps : K) (q : Est K) (ifail : Int) : K × Nat :=
  if ifail = 3 then (1 / 2, 1)
  else if ifail < 3 then
    (if p5eps < 1 / 4 * q.erk then e.sqrt (p5eps / q.erk) else 1 / 2, 1)
  else (1 / 2, q.knew)

/-- Lines 287-311. -/
def reject (e : Ext K n) (p5eps : K) (q : Est K) (ifail : Int) (xold : K) (s : St K n) : St K n :=
  let r := restored s xold
  let (t2, knew) := shrink e p5eps q ifail
  { r with h := t2 * s.h, k := knew }

/-! ### Block 4: acceptance -/

/-- Lines 335-361: correct the solution, update the differences. -/
def corrected (e : Ext K n) (s : St K n) : St K n :=
  let t1 := s.h * s.g s.k
  let (yy, phi) :=
    if s.nornd then (s.p + t1 • (s.yp - s.phi 0), s.phi)
    else
      let rho := t1 • (s.yp - s.phi 0) - s.phi 15
      let yy := s.p + rho
      (yy, put s.phi 14 ((yy - s.p) - rho))
  let yp := e.f s.x yy
  let phi1 := put phi s.k (yp - phi 0)
  let phi2 := put phi1 (s.k + 1) (phi1 s.k - phi1 (s.k + 1))
  let phi3 : Nat → Vec K n := fun i => if i < s.k then phi2 i + phi2 s.k else phi2 i
  { s with kold := s.k, hold := s.h, yy := yy, yp := yp, phi := phi3 }

/-- Error at order `k+1` (sgode_step.cpp:381-383). -/
def erkp1 (e : Ext K n) (q : Est K) (s : St K n) : K :=
  let nrm := e.norm (quot (s.phi (s.k + 1)) s.wt)
  q.absh * e.gstr s.k * e.sqrt (nrm * nrm)

/-- The new order and its error (sgode_step.cpp:368-415), with the `phase1` of sgode_step.cpp:369. -/
def nextOrder (e : Ext K n) (q : Est K) (s : St K n) : Nat × K × Bool :=
  let phase1 := if q.knew = s.k - 1 ∨ s.k = 12 then false else s.phase1
  let up := (s.k + 1, erkp1 e q s, phase1)
  let down := (s.k - 1, q.erkm1, phase1)
  let same := (s.k, q.erk, phase1)
  if phase1 then (s.k + 1, 0, phase1)
  else if q.knew = s.k - 1 then down
  else if s.k + 1 > s.ns then same
  else if s.k > 1 then
    if q.erkm1 ≤ min q.erk (erkp1 e q s) then down
    else if erkp1 e q s ≥ q.erk ∨ s.k = 12 then same
    else up
  else if erkp1 e q s ≥ 1 / 2 * q.erk then same
  else up

/-- The new step size (sgode_step.cpp:420-432). -/
def nextH (e : Ext K n) (p5eps erk absh : K) (phase1 : Bool) (s : St K n) : K :=
  if phase1 ∨ p5eps ≥ erk * 2 ^ (s.k + 1) then 2 * s.h
  else if p5eps < erk then
    let r := e.pow (p5eps / erk) (1 / ((s.k : K) + 1))
    let hnew := absh * max (1 / 2) (min (9 / 10) r)
    copysign (max hnew (4 * e.umach * |s.x|)) s.h
  else s.h

/-- Block 4 (sgode_step.cpp:335-437). -/
def accept (e : Ext K n) (p5eps : K) (q : Est K) (s : St K n) : St K n :=
  let s := corrected e s
  let (k, erk, phase1) := nextOrder e q s
  let s := { s with k := k, phase1 := phase1 }
  { s with h := nextH e p5eps erk q.absh phase1 s }

/-! ### The step -/

/-- One pass through blocks 1 and 2. -/
def attempt (e : Ext K n) (s : St K n) : St K n := predicted e (block1 s)

/-- How `step` ends: state, tolerance, `crash`. -/
structure Res (K : Type) (n : Nat) where
  st : St K n
  eps : K
  crash : Bool

/-- The loop (sgode_step.cpp:80-325) and block 4; `none`: not finished after `fuel` attempts. -/
def loop (e : Ext K n) (eps p5eps : K) : Nat → Int → St K n → Option (Res K n)
  | 0, _, _ => none
  | fuel + 1, ifail, s =>
    let s1 := attempt e s
    let q := estimates e s1
    if q.err ≤ eps then some ⟨accept e p5eps q s1, eps, false⟩
    else
      let r := reject e p5eps q (ifail + 1) s.x s1
      if |r.h| ≥ 4 * e.umach * |r.x| then loop e eps p5eps fuel (ifail + 1) r
      else some ⟨{ r with h := copysign (4 * e.umach * |r.x|) r.h }, eps + eps, true⟩

/-- `round` (sgode_step.cpp:35). -/
def roundErr (e : Ext K n) (s : St K n) : K := 2 * e.umach * e.norm (quot s.yy s.wt)

/-- Lines 43-45. -/
def initCoefs (s : St K n) : St K n := { s with g := put (put s.g 0 1) 1 (1 / 2), sig := put s.sig 0 1 }

/-- The first step (sgode_step.cpp:49-70). -/
def initialise (e : Ext K n) (eps p5eps round : K) (s : St K n) : St K n :=
  let yp := e.f s.x s.yy
  let phi := put (put s.phi 0 yp) 1 0
  let sum := e.norm (quot yp s.wt)
  let absh := if eps < 16 * sum * s.h * s.h then 1 / 4 * e.sqrt (eps / sum) else |s.h|
  let nornd := decide (¬ (p5eps ≤ 100 * round))
  { s with
    yp := yp
    phi := if nornd then phi else put phi 14 0
    h := copysign (max absh (4 * e.umach * |s.x|)) s.h
    hold := 0
    k := 1
    kold := 0
    start := false
    phase1 := true
    nornd := nornd }

/-- `SGOde::step` (sgode_step.cpp:18-438).  `ifail` is only initialised when `start` is set (sgode_step.cpp:69): in
all other calls its value is indeterminate, here the parameter `garbage`. -/
def step (e : Ext K n) (fuel : Nat) (garbage : Int) (s : St K n) (eps : K) : Option (Res K n) :=
  if |s.h| < 4 * e.umach * |s.x| then
    some ⟨{ s with h := copysign (4 * e.umach * |s.x|) s.h }, eps, true⟩
  else
    let p5eps := 1 / 2 * eps
    let round := roundErr e s
    if p5eps < round then some ⟨s, 2 * round * (1 + 4 * e.umach), true⟩
    else
      let s := initCoefs s
      if s.start then loop e eps p5eps fuel 0 (initialise e eps p5eps round s)
      else loop e eps p5eps fuel garbage s

/-! ### Interpolation -/

/-- The arrays `g`, `w`, `rho` and `term` of `intrp` (sgode_intrp.cpp:26-40): `m` iterations from `j`. -/
def intrpLoop (psi : Nat → K) (hi : K) (kip1 : Nat) :
    Nat → Nat → (Nat → K) → (Nat → K) → (Nat → K) → K → (Nat → K) × (Nat → K)
  | 0, _, g, _, rho, _ => (g, rho)
  | m + 1, j, g, w, rho, term =>
    let q := psi (j - 1)
    let gamma := (hi + term) / q
    let eta := hi / q
    let w' : Nat → K := fun i => if i + 1 < kip1 - j then gamma * w i - eta * w (i + 1) else w i
    intrpLoop psi hi kip1 m (j + 1) (put g j (w' 0)) w' (put rho j (gamma * rho (j - 1))) q

/-- Lines 45-54: the sum of the differences with coefficients `c`, indices `m-1` down to 0. -/
def sumDown (c : Nat → K) (phi : Nat → Vec K n) : Nat → Vec K n → Vec K n
  | 0, a => a
  | m + 1, a => sumDown c phi m (a + c m • phi m)

/-- `SGOde::intrp` (sgode_intrp.cpp:8-59): the solution `yout` and the derivative `ypout`. -/
def intrp (s : St K n) (xout : K) : Vec K n × Vec K n :=
  let hi := xout - s.x
  let ki := s.kold + 1
  let w : Nat → K := fun i => 1 / ((i : K) + 1)
  let (g, rho) := intrpLoop s.psi hi (ki + 1) (ki - 1) 1 (put (fun _ => 0) 0 1) w (put (fun _ => 0) 0 1) 0
  (s.yy + hi • sumDown g s.phi ki 0, sumDown rho s.phi ki 0)

end Verif.Sgode
