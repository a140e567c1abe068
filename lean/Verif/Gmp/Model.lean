/-
The limb arithmetic of /repo/src/nettle/mini-gmp.c that the RSA check of a firmware image runs
on: carries, half-limb products, shifts, the precomputed inverse, schoolbook division and the
modular exponentiation.

A limb is an `unsigned long` (mini-gmp.h, `mp_limb_t`) of `2 * h` bits, half-limb variables are
`unsigned` of `u` bits.  On the ESP targets `h = 16`, `u = 32`; on a 64-bit host `h = 32`,
`u = 32`.  A number is the list of its limbs, lowest first; limbs are naturals below
`2 ^ (2 * h)` and every machine operation says where it wraps.  A failed `assert` or a loop that
does not end is `none`.
-/
namespace Verif.Gmp

/-- `1 << (GMP_LIMB_BITS / 2)` (/repo/src/nettle/mini-gmp.c:53-58, GMP_HLIMB_BIT). -/
def half (h : Nat) : Nat := 2 ^ h

/-- One more than GMP_LIMB_MAX (/repo/src/nettle/mini-gmp.c:53-56). -/
def base (h : Nat) : Nat := half h * half h

/-- Addition of two limbs, which wraps. -/
def wadd (h a b : Nat) : Nat := (a + b) % base h

/-- Subtraction of two limbs, which wraps. -/
def wsub (h a b : Nat) : Nat := (a + (base h - b)) % base h

/-- Product of two limbs kept in one limb. -/
def wmul (h a b : Nat) : Nat := (a * b) % base h

/-- The value of a comparison in C. -/
def flag (c : Bool) : Nat := if c then 1 else 0

/-- The second sum of gmp_umul_ppmm (/repo/src/nettle/mini-gmp.c:127-129): `x1 + (x0 >> h)`,
then `+ x2`. -/
def mid (h x0 x1 x2 : Nat) : Nat := wadd h (wadd h x1 (x0 / half h)) x2

/-- gmp_umul_ppmm from the four half products (/repo/src/nettle/mini-gmp.c:127-134). -/
def join (h x0 x1 x2 x3 : Nat) : Nat × Nat :=
  (wadd h (wadd h x3 (if mid h x0 x1 x2 < x2 then half h else 0)) (mid h x0 x1 x2 / half h),
   wadd h (wmul h (mid h x0 x1 x2) (half h)) (x0 % half h))

/-- gmp_umul_ppmm (/repo/src/nettle/mini-gmp.c:112-135): high and low limb of a product. -/
def umul (h u x y : Nat) : Nat × Nat :=
  join h (wmul h (x % half h % 2 ^ u) (y % half h % 2 ^ u))
    (wmul h (x % half h % 2 ^ u) (y / half h % 2 ^ u))
    (wmul h (x / half h % 2 ^ u) (y % half h % 2 ^ u))
    (wmul h (x / half h % 2 ^ u) (y / half h % 2 ^ u))

/-- gmp_add_ssaaaa (/repo/src/nettle/mini-gmp.c:96-102). -/
def add2 (h : Nat) (a b : Nat × Nat) : Nat × Nat :=
  (wadd h (wadd h a.1 b.1) (flag (wadd h a.2 b.2 < a.2)), wadd h a.2 b.2)

/-- gmp_sub_ddmmss (/repo/src/nettle/mini-gmp.c:104-110). -/
def sub2 (h : Nat) (a b : Nat × Nat) : Nat × Nat :=
  (wsub h (wsub h a.1 b.1) (flag (a.2 < b.2)), wsub h a.2 b.2)

/-- mpn_add_n (/repo/src/nettle/mini-gmp.c:367-382): limb-wise sum with the carry `cy`. -/
def addN (h : Nat) : Nat → List Nat → List Nat → List Nat × Nat
  | cy, a :: as, b :: bs =>
    let r := addN h (flag (wadd h a cy < cy) + flag (wadd h (wadd h a cy) b < b)) as bs
    (wadd h (wadd h a cy) b :: r.1, r.2)
  | cy, _, _ => ([], cy)

/-- mpn_mul_1 (/repo/src/nettle/mini-gmp.c:440-457). -/
def mul1 (h u vl : Nat) : Nat → List Nat → List Nat × Nat
  | cl, ul :: us =>
    let p := umul h u ul vl
    let r := mul1 h u vl (wadd h (flag (wadd h p.2 cl < cl)) p.1) us
    (wadd h p.2 cl :: r.1, r.2)
  | cl, [] => ([], cl)

/-- mpn_addmul_1 (/repo/src/nettle/mini-gmp.c:459-479): `rp += up * vl`. -/
def addmul1 (h u vl : Nat) : Nat → List Nat → List Nat → List Nat × Nat
  | cl, rl :: rs, ul :: us =>
    let p := umul h u ul vl
    let l := wadd h p.2 cl
    let s := wadd h rl l
    let r := addmul1 h u vl (wadd h (wadd h (flag (l < cl)) p.1) (flag (s < rl))) rs us
    (s :: r.1, r.2)
  | cl, _, _ => ([], cl)

/-- mpn_submul_1 (/repo/src/nettle/mini-gmp.c:481-501): `rp -= up * vl`. -/
def submul1 (h u vl : Nat) : Nat → List Nat → List Nat → List Nat × Nat
  | cl, rl :: rs, ul :: us =>
    let p := umul h u ul vl
    let l := wadd h p.2 cl
    let s := wsub h rl l
    let r := submul1 h u vl (wadd h (wadd h (flag (l < cl)) p.1) (flag (rl < s))) rs us
    (s :: r.1, r.2)
  | cl, _, _ => ([], cl)

/-- The while loop of mpn_mul (/repo/src/nettle/mini-gmp.c:517-521).  `rp` is the part of the
result from the moved pointer on (`un` limbs); the limb below it is finished. -/
def mulRows (h u : Nat) (us : List Nat) : List Nat → List Nat → List Nat
  | rp, [] => rp
  | rp, v :: vs =>
    let r := addmul1 h u v 0 rp us
    (r.1 ++ [r.2]).take 1 ++ mulRows h u us ((r.1 ++ [r.2]).drop 1) vs

/-- mpn_mul (/repo/src/nettle/mini-gmp.c:503-523), `un >= vn >= 1`. -/
def mulN (h u : Nat) (us vs : List Nat) : List Nat :=
  match vs with
  | [] => []
  | v :: vs =>
    let r := mul1 h u v 0 us
    (r.1 ++ [r.2]).take 1 ++ mulRows h u us ((r.1 ++ [r.2]).drop 1) vs

/-- mpn_normalized_size (/repo/src/nettle/mini-gmp.c:338-342): drop the zero limbs at the top. -/
def normalized (xs : List Nat) : List Nat := (xs.reverse.dropWhile (· == 0)).reverse

/-- mpz_mul of two non-negative numbers (/repo/src/nettle/mini-gmp.c:1728-1761). -/
def mulZ (h u : Nat) (us vs : List Nat) : List Nat :=
  if us.length = 0 ∨ vs.length = 0 then []
  else
    let t := if vs.length ≤ us.length then mulN h u us vs else mulN h u vs us
    if t.getLast? = some 0 then t.dropLast else t

/-- mpn_cmp (/repo/src/nettle/mini-gmp.c:324-329) on the limbs from the top down. -/
def cmpTop : List Nat → List Nat → Int
  | a :: as, b :: bs => if a ≠ b then (if a > b then 1 else -1) else cmpTop as bs
  | _, _ => 0

/-- mpz_cmp of two non-negative numbers (/repo/src/nettle/mini-gmp.c:1529-1539). -/
def cmpZ (a b : List Nat) : Int :=
  if a.length ≠ b.length then (if a.length < b.length then -1 else 1)
  else cmpTop a.reverse b.reverse

/-- mpn_lshift (/repo/src/nettle/mini-gmp.c:533-559), written from the low end: the limb at each
place is `x << cnt` joined with the top bits of the limb below.  The source goes from the top so
that it may work in place; each limb is read before it is overwritten. -/
def lshiftGo (h cnt : Nat) : Nat → List Nat → List Nat × Nat
  | low, x :: xs =>
    let r := lshiftGo h cnt x xs
    ((wmul h x (2 ^ cnt) ||| low / 2 ^ (2 * h - cnt)) :: r.1, r.2)
  | low, [] => ([], low / 2 ^ (2 * h - cnt))

/-- mpn_lshift: limbs and the bits shifted out. -/
def lshift (h cnt : Nat) (xs : List Nat) : List Nat × Nat := lshiftGo h cnt 0 xs

/-- The loop of mpn_rshift (/repo/src/nettle/mini-gmp.c:570-584): each limb `x >> cnt` joined
with the low bits of the limb above. -/
def rshiftGo (h cnt : Nat) : List Nat → List Nat
  | [] => []
  | [x] => [x / 2 ^ cnt]
  | x :: y :: xs =>
    (x / 2 ^ cnt ||| wmul h y (2 ^ (2 * h - cnt))) :: rshiftGo h cnt (y :: xs)

/-- mpn_rshift (/repo/src/nettle/mini-gmp.c:561-584): limbs and the bits shifted out. -/
def rshift (h cnt : Nat) (xs : List Nat) : List Nat × Nat :=
  (rshiftGo h cnt xs, wmul h (xs.headD 0) (2 ^ (2 * h - cnt)))

/-- First loop of gmp_clz (/repo/src/nettle/mini-gmp.c:75-78): whole zero octets at the top. -/
def clzOctets (h : Nat) : Nat → Nat → Nat → Option (Nat × Nat)
  | 0, _, _ => none
  | n + 1, c, x =>
    if x / 2 ^ (2 * h - 8) = 0 then clzOctets h n (c + 8) (wmul h x 256) else some (c, x)

/-- Second loop of gmp_clz (/repo/src/nettle/mini-gmp.c:79). -/
def clzBits (h : Nat) : Nat → Nat → Nat → Option Nat
  | 0, _, _ => none
  | n + 1, c, x =>
    if x / 2 ^ (2 * h - 1) = 0 then clzBits h n (c + 1) (wmul h x 2) else some c

/-- gmp_clz (/repo/src/nettle/mini-gmp.c:71-81): zero bits above the highest one of a limb.
Neither loop ends for zero; the fuel `2 * h + 1` is enough for every other limb. -/
def clz (h x : Nat) : Option Nat :=
  (clzOctets h (2 * h + 1) 0 x).bind fun s => clzBits h (2 * h + 1) s.1 s.2

/-- Assignment to a variable of type `unsigned` (/repo/src/nettle/mini-gmp.c:625-626). -/
def uint (u x : Nat) : Nat := x % 2 ^ u

/-- The first quotient of mpn_invert_3by2 before its adjustment
(/repo/src/nettle/mini-gmp.c:633-639): `qh`, `r`, `p`. -/
def firstTry (h u u1 : Nat) : Nat × Nat × Nat :=
  let ul := uint u (u1 % half h)
  let uh := uint u (u1 / half h)
  let qh := uint u ((base h - 1 - u1) / uh)
  (qh,
   wmul h (wsub h (base h - 1 - u1) (wmul h qh uh)) (half h) ||| (half h - 1),
   wmul h qh ul)

/-- The adjustment steps (/repo/src/nettle/mini-gmp.c:641-650): `qh` and the remainder. -/
def firstAdjust (h u u1 : Nat) (s : Nat × Nat × Nat) : Nat × Nat :=
  let qh := s.1
  let r := s.2.1
  let p := s.2.2
  if r < p then
    let r1 := wadd h r u1
    if u1 ≤ r1 ∧ r1 < p then (uint u (qh + 2 ^ u - 2), wsub h (wadd h r1 u1) p)
    else (uint u (qh + 2 ^ u - 1), wsub h r1 p)
  else (qh, wsub h r p)

/-- The 3/2 division with half limbs (/repo/src/nettle/mini-gmp.c:653-667): the inverse `m` of
the single limb `u1` and the remainder that belongs to it. -/
def secondHalf (h u u1 : Nat) (s : Nat × Nat) : Nat × Nat :=
  let qh := s.1
  let p := wadd h (wmul h (s.2 / half h) qh) s.2
  let ql := uint u (p / half h + 1)
  let r := wsub h (wadd h (wmul h s.2 (half h)) (half h - 1)) (wmul h ql u1)
  let up := decide (wmul h p (half h) ≤ r)
  let ql' := if up then uint u (ql + 2 ^ u - 1) else ql
  let r' := if up then wadd h r u1 else r
  let m := wadd h (wmul h qh (half h)) ql'
  if u1 ≤ r' then (wadd h m 1, wsub h r' u1) else (m, r')

/-- The 2/1 inverse of mpn_invert_3by2 (/repo/src/nettle/mini-gmp.c:628-667). -/
def invert1 (h u u1 : Nat) : Nat × Nat :=
  secondHalf h u u1 (firstAdjust h u u1 (firstTry h u u1))

/-- The carry of `~r + u0` (/repo/src/nettle/mini-gmp.c:671-680): `m` and `r`. -/
def refineLow (h u1 u0 : Nat) (s : Nat × Nat) : Nat × Nat :=
  let r := wadd h (base h - 1 - s.2) u0
  if r < u0 then
    if u1 ≤ r then (wsub h (wsub h s.1 1) 1, wsub h (wsub h r u1) u1)
    else (wsub h s.1 1, wsub h r u1)
  else (s.1, r)

/-- The product of the low limb (/repo/src/nettle/mini-gmp.c:681-686). -/
def refineProduct (h u u1 u0 : Nat) (s : Nat × Nat) : Nat :=
  let t := umul h u u0 s.1
  let r := wadd h s.2 t.1
  if r < t.1 then
    wsub h (wsub h s.1 1) (flag (decide (u1 < r) || (decide (r = u1) && decide (u0 < t.2))))
  else s.1

/-- mpn_invert_3by2 (/repo/src/nettle/mini-gmp.c:623-690). -/
def invert3by2 (h u u1 u0 : Nat) : Option Nat :=
  if u1 < base h / 2 then none
  else if 0 < u0 then some (refineProduct h u u1 u0 (refineLow h u1 u0 (invert1 h u u1)))
  else some (invert1 h u u1).1

/-- The estimated quotient of gmp_udiv_qr_3by2 (/repo/src/nettle/mini-gmp.c:158-159). -/
def guess (h u n2 n1 dinv : Nat) : Nat × Nat := add2 h (umul h u n2 dinv) (n2, n1)

/-- The two low limbs of `n - (q + 1) d` (/repo/src/nettle/mini-gmp.c:162-165). -/
def guessRest (h u q n1 n0 d1 d0 : Nat) : Nat × Nat :=
  sub2 h (sub2 h (wsub h n1 (wmul h d1 q), n0) (d1, d0)) (umul h u d0 q)

/-- The end of gmp_udiv_qr_3by2 (/repo/src/nettle/mini-gmp.c:166-179): `q`, `r1`, `r0`. -/
def settle (h q q0 d1 d0 : Nat) (r : Nat × Nat) : Nat × Nat × Nat :=
  let up := decide (q0 ≤ r.1)
  let q' := if up then wadd h (wadd h q 1) (base h - 1) else wadd h q 1
  let r' := add2 h r (if up then (d1, d0) else (0, 0))
  if d1 ≤ r'.1 ∧ (d1 < r'.1 ∨ d0 ≤ r'.2) then (wadd h q' 1, sub2 h r' (d1, d0)) else (q', r')

/-- gmp_udiv_qr_3by2 (/repo/src/nettle/mini-gmp.c:155-180). -/
def udiv3by2 (h u n2 n1 n0 d1 d0 dinv : Nat) : Nat × Nat × Nat :=
  settle h (guess h u n2 n1 dinv).1 (guess h u n2 n1 dinv).2 d1 d0
    (guessRest h u (guess h u n2 n1 dinv).1 n1 n0 d1 d0)

/-- struct gmp_div_inverse (/repo/src/nettle/mini-gmp.c:692-699). -/
structure Inverse where
  shift : Nat
  d1 : Nat
  d0 : Nat
  di : Nat
deriving Repr, DecidableEq

/-- The top limb after normalisation (/repo/src/nettle/mini-gmp.c:746-749). -/
def joinShift (h shift hi lo : Nat) : Nat :=
  if 0 < shift then wmul h hi (2 ^ shift) ||| lo / 2 ^ (2 * h - shift) else hi

/-- mpn_div_qr_invert for `dn > 2` (/repo/src/nettle/mini-gmp.c:735-753).  The branches for one
and two limbs are not modelled: the modulus of an accepted key has at least 62 octets. -/
def divInvert (h u : Nat) (dp : List Nat) : Option Inverse :=
  match dp.reverse with
  | x :: y :: z :: _ =>
    if x = 0 then none
    else
      (clz h x).bind fun s =>
        (invert3by2 h u (joinShift h s x y) (joinShift h s y z)).map fun v =>
          ⟨s, joinShift h s x y, joinShift h s y z, v⟩
  | _ => none

/-- The first branch of the loop of mpn_div_qr_pi1 (/repo/src/nettle/mini-gmp.c:899-903): the
window `np[i ..]` after `q = GMP_LIMB_MAX`; the new `n1` and the limbs below it. -/
def pi1Max (h u : Nat) (dp win : List Nat) : Nat × List Nat :=
  let r := (submul1 h u (base h - 1) 0 win dp).1
  (r.getLastD 0, r.dropLast)

/-- The second branch (/repo/src/nettle/mini-gmp.c:905-919) after the 3/2 quotient: subtract
`q` times the low limbs of the divisor, propagate the borrow, add the divisor back if it was
one too many. -/
def pi1Sub (h u : Nat) (dp win : List Nat) (d1 : Nat) (s : Nat × Nat × Nat) : Nat × List Nat :=
  let n := dp.length - 2
  let m := submul1 h u s.1 0 (win.take n) (dp.take n)
  let n0 := wsub h s.2.2 m.2
  let cy1 := flag (decide (s.2.2 < m.2))
  let n1 := wsub h s.2.1 cy1
  let rest := m.1 ++ [n0]
  if s.2.1 < cy1 then
    let a := addN h 0 rest (dp.take (dp.length - 1))
    (wadd h n1 (wadd h d1 a.2), a.1)
  else (n1, rest)

/-- One turn of the loop of mpn_div_qr_pi1 (/repo/src/nettle/mini-gmp.c:896-924).  `win` are the
`dn` limbs `np[i], ..., np[i + dn - 1]`.  The quotient is not stored (`qp` is NULL in
mpz_powm). -/
def pi1Step (h u : Nat) (dp : List Nat) (dinv n1 : Nat) (win : List Nat) : Nat × List Nat :=
  let d1 := dp.getD (dp.length - 1) 0
  let d0 := dp.getD (dp.length - 2) 0
  let n0 := win.getD (dp.length - 1) 0
  if n1 = d1 ∧ n0 = d0 then pi1Max h u dp win
  else pi1Sub h u dp win d1 (udiv3by2 h u n1 n0 (win.getD (dp.length - 2) 0) d1 d0 dinv)

/-- The loop of mpn_div_qr_pi1 (/repo/src/nettle/mini-gmp.c:895-924).  The limbs below the window
come one at a time, highest first; limbs above it are not read again. -/
def pi1Loop (h u : Nat) (dp : List Nat) (dinv : Nat) : List Nat → Nat × List Nat → Nat × List Nat
  | [], s => s
  | x :: xs, s => pi1Loop h u dp dinv xs (pi1Step h u dp dinv s.1 (x :: s.2))

/-- mpn_div_qr_pi1 (/repo/src/nettle/mini-gmp.c:871-927): the `dn` low limbs of `np` afterwards.
The three asserts at 884-890 are checked. -/
def divPi1 (h u : Nat) (np : List Nat) (n1 : Nat) (dp : List Nat) (dinv : Nat) :
    Option (List Nat) :=
  if dp.length ≤ 2 ∨ np.length < dp.length ∨ dp.getD (dp.length - 1) 0 < base h / 2 then none
  else
    let k := np.length - dp.length + 1
    let s := pi1Loop h u dp dinv (np.take k).reverse (n1, np.drop k)
    some (s.2 ++ [s.1])

/-- mpn_div_qr_preinv for `dn > 2` (/repo/src/nettle/mini-gmp.c:929-960): the `dn` low limbs of
`np` afterwards.  The asserts on the divisor and on the bits shifted out are checked. -/
def divPreinv (h u : Nat) (np dp : List Nat) (inv : Inverse) : Option (List Nat) :=
  if np.length < dp.length ∨ dp.length ≤ 2 ∨ inv.d1 ≠ dp.getD (dp.length - 1) 0
      ∨ inv.d0 ≠ dp.getD (dp.length - 2) 0 then none
  else if 0 < inv.shift then
    (divPi1 h u (lshift h inv.shift np).1 (lshift h inv.shift np).2 dp inv.di).bind fun r =>
      if (rshift h inv.shift r).2 = 0 then some (rshift h inv.shift r).1 else none
  else divPi1 h u np 0 dp inv.di

/-- One bit of the exponent in mpz_powm (/repo/src/nettle/mini-gmp.c:2640-2645). -/
def powStep (h u : Nat) (mp : List Nat) (inv : Inverse) (b : List Nat) (bit : Bool)
    (tr : List Nat) : Option (List Nat) :=
  let t := if bit then mulZ h u (mulZ h u tr tr) b else mulZ h u tr tr
  if mp.length < t.length then (divPreinv h u t mp inv).map normalized else some t

/-- The bits of one limb of the exponent, highest first
(/repo/src/nettle/mini-gmp.c:2635-2647). -/
def powBits (h u : Nat) (mp : List Nat) (inv : Inverse) (b : List Nat) (w : Nat) :
    Nat → List Nat → Option (List Nat)
  | 0, tr => some tr
  | n + 1, tr =>
    (powStep h u mp inv b (decide (w / 2 ^ n % 2 = 1)) tr).bind (powBits h u mp inv b w n)

/-- The limbs of the exponent, highest first (/repo/src/nettle/mini-gmp.c:2634-2648). -/
def powLimbs (h u : Nat) (mp : List Nat) (inv : Inverse) (b : List Nat) :
    List Nat → List Nat → Option (List Nat)
  | [], tr => some tr
  | w :: ws, tr => (powBits h u mp inv b w (2 * h) tr).bind (powLimbs h u mp inv b ws)

/-- The reduced base (/repo/src/nettle/mini-gmp.c:2614-2631, `b >= 0`). -/
def powBase (h u : Nat) (b mp : List Nat) (inv : Inverse) : Option (List Nat) :=
  if mp.length ≤ b.length then (divPreinv h u b mp inv).map normalized else some (normalized b)

/-- The final reduction (/repo/src/nettle/mini-gmp.c:2650-2655). -/
def powLast (h u : Nat) (mp : List Nat) (inv : Inverse) (tr : List Nat) : Option (List Nat) :=
  if mp.length ≤ tr.length then (divPreinv h u tr mp inv).map normalized else some tr

/-- mpz_powm after the inverse (/repo/src/nettle/mini-gmp.c:2598-2655); `minv.shift` is zero until
the final reduction.  The assert on the bits shifted out of the modulus is checked. -/
def powWith (h u : Nat) (b e m : List Nat) (inv : Inverse) : Option (List Nat) :=
  let mp := if 0 < inv.shift then (lshift h inv.shift m).1 else m
  if 0 < inv.shift ∧ (lshift h inv.shift m).2 ≠ 0 then none
  else
    (powBase h u b mp { inv with shift := 0 }).bind fun bb =>
      (powLimbs h u mp { inv with shift := 0 } bb e.reverse [1]).bind (powLast h u mp inv)

/-- mpz_powm for non-negative arguments (/repo/src/nettle/mini-gmp.c:2582-2668). -/
def powm (h u : Nat) (b e m : List Nat) : Option (List Nat) :=
  if m.length = 0 then none
  else if e.length = 0 then some [1]
  else (divInvert h u m).bind (powWith h u b e m)

/-- The loop of mpz_import with words of one octet (/repo/src/nettle/mini-gmp.c:3589-3599), least
significant octet first: the current limb, the octets in it, and the limbs stored so far. -/
def importLoop (h : Nat) : List Nat → Nat → Nat → List Nat → Nat × Nat × List Nat
  | [], limb, bytes, rp => (limb, bytes, rp)
  | x :: xs, limb, bytes, rp =>
    if bytes + 1 = 2 * h / 8 then importLoop h xs 0 0 (rp ++ [limb ||| wmul h x (2 ^ (bytes * 8))])
    else importLoop h xs (limb ||| wmul h x (2 ^ (bytes * 8))) (bytes + 1) rp

/-- mpz_import as nettle_mpz_set_str_256_u calls it (/repo/src/nettle/mini-gmp.c:3547-3609,
/repo/src/nettle/bignum.c:118-123): order 1, size 1. -/
def importZ (h : Nat) (octets : List Nat) : Option (List Nat) :=
  let s := importLoop h octets.reverse 0 0 []
  if s.2.2.length + flag (decide (0 < s.2.1)) ≠ (octets.length + 2 * h / 8 - 1) / (2 * h / 8)
  then none
  else if s.1 ≠ 0 then some (s.2.2 ++ [s.1]) else some (normalized s.2.2)

/-- mpn_limb_size_in_base_2 and mpz_sizeinbase(u, 2) (/repo/src/nettle/mini-gmp.c:1023-1029 and
3358-3377). -/
def sizeBits (h : Nat) (xs : List Nat) : Option Nat :=
  if xs.length = 0 then some 1
  else (clz h (xs.getLastD 0)).map fun c => (xs.length - 1) * (2 * h) + (2 * h - c)

/-- mpz_odd_p (/repo/src/nettle/mini-gmp.h:123). -/
def oddZ (xs : List Nat) : Bool := xs.length ≠ 0 && xs.headD 0 % 2 == 1

end Verif.Gmp
