/-
  Model of include/graphene-simd4f.h and src/graphene-simd4f.c: the four-lane
  vector type `graphene_simd4f_t` with its four backends.

  Functions that return through a pointer return a value here.  Operations that
  are lane-wise the same expression on every backend have no backend argument;
  the others take `bk : Backend`.
-/
import Verif.Model.Scalar

namespace Graphene

/-- `graphene_simd4f_t` (include/graphene-config.h.meson:83-98). -/
@[ext] structure V4 (α : Type) where
  x : α
  y : α
  z : α
  w : α
deriving DecidableEq

/-- The implementation selected at configure time (include/graphene-config.h.meson:17-51).
`sse sse41 avx`: the SSE backend, with `GRAPHENE_USE_SSE4_1` / `GRAPHENE_USE_AVX`;
`gcc`: GCC/Clang vector extensions; `neon`: ARM NEON (GCC flavour);
`scalar ieeeDiv`: plain C, with `HAVE_IEEE_754_FLOAT_DIVISION`.
The MSVC flavours of SSE and NEON repeat the same expressions and are not modelled separately.
Model/Intrinsics.lean transcribes the backends instruction by instruction; Props/Backends4 (C126) relates the two. -/
inductive Backend where
  | sse (sse41 avx : Bool)
  | gcc
  | neon
  | scalar (ieeeDiv : Bool)
deriving DecidableEq

/-- A caller-owned C array of `float`; an access past its end is undefined
behaviour, which the model reports as `none`. -/
abbrev Buf (α : Type) := List α

namespace Simd4f
variable {α : Type} [Scalar α]

/-- `graphene_simd4f_init` (include/graphene-simd4f.h:202-205; src/graphene-simd4f.c:1098-1106). -/
def init (x y z w : α) : V4 α := ⟨x, y, z, w⟩

/-- `graphene_simd4f_init_zero` (simd4f.h:207-210; simd4f.c:1108-1112). -/
def initZero : V4 α := ⟨f0, f0, f0, f0⟩

/-- `graphene_simd4f_init_4f` (simd4f.h:212-215; simd4f.c:1114-1118): reads 4 floats. -/
def init4f : Buf α → Option (V4 α)
  | a :: b :: c :: d :: _ => some ⟨a, b, c, d⟩
  | _ => none

/-- `graphene_simd4f_init_3f` (simd4f.h:217-220; simd4f.c:1120-1124): reads 3 floats. -/
def init3f : Buf α → Option (V4 α)
  | a :: b :: c :: _ => some ⟨a, b, c, f0⟩
  | _ => none

/-- `graphene_simd4f_init_2f` (simd4f.h:222-225; simd4f.c:1126-1130): reads 2 floats. -/
def init2f : Buf α → Option (V4 α)
  | a :: b :: _ => some ⟨a, b, f0, f0⟩
  | _ => none

/-- `graphene_simd4f_dup_4f` (simd4f.h:227-230; simd4f.c:1132-1137): writes 4 floats. -/
def dup4f (s : V4 α) : Buf α → Option (Buf α)
  | _ :: _ :: _ :: _ :: tl => some (s.x :: s.y :: s.z :: s.w :: tl)
  | _ => none

/-- `graphene_simd4f_dup_3f` (simd4f.h:232-235; simd4f.c:1139-1144): writes 3 floats. -/
def dup3f (s : V4 α) : Buf α → Option (Buf α)
  | _ :: _ :: _ :: tl => some (s.x :: s.y :: s.z :: tl)
  | _ => none

/-- `graphene_simd4f_dup_2f` (simd4f.h:237-240; simd4f.c:1146-1151): writes 2 floats. -/
def dup2f (s : V4 α) : Buf α → Option (Buf α)
  | _ :: _ :: tl => some (s.x :: s.y :: tl)
  | _ => none

/-- the exported function `(graphene_simd4f_get)` (simd4f.c:217-238, 1153-1170):
an out-of-range lane reads as `0.f`. -/
def get (s : V4 α) (i : Nat) : α :=
  match i with
  | 0 => s.x
  | 1 => s.y
  | 2 => s.z
  | 3 => s.w
  | _ => f0

/-- `graphene_simd4f_splat` (simd4f.h:253-256; simd4f.c:1196-1201). -/
def splat (v : α) : V4 α := ⟨v, v, v, v⟩
/-- `graphene_simd4f_splat_x` (simd4f.h:258-261; simd4f.c:1203-1208). -/
def splatX (s : V4 α) : V4 α := splat s.x
/-- `graphene_simd4f_splat_y` (simd4f.h:263-266; simd4f.c:1210-1215). -/
def splatY (s : V4 α) : V4 α := splat s.y
/-- `graphene_simd4f_splat_z` (simd4f.h:268-271; simd4f.c:1217-1222). -/
def splatZ (s : V4 α) : V4 α := splat s.z
/-- `graphene_simd4f_splat_w` (simd4f.h:273-276; simd4f.c:1224-1229). -/
def splatW (s : V4 α) : V4 α := splat s.w

/-- apply a one-lane operation to every lane -/
def map1 (f : α → α) (a : V4 α) : V4 α := ⟨f a.x, f a.y, f a.z, f a.w⟩
/-- apply a two-lane operation to every pair of lanes -/
def map2 (f : α → α → α) (a b : V4 α) : V4 α := ⟨f a.x b.x, f a.y b.y, f a.z b.z, f a.w b.w⟩

/-- `graphene_simd4f_add` (simd4f.h:278-281; simd4f.c:1274-1285). -/
def add (a b : V4 α) : V4 α := map2 Scalar.add a b
/-- `graphene_simd4f_sub` (simd4f.h:283-286; simd4f.c:1287-1298). -/
def sub (a b : V4 α) : V4 α := map2 Scalar.sub a b
/-- `graphene_simd4f_mul` (simd4f.h:288-291; simd4f.c:1300-1311). -/
def mul (a b : V4 α) : V4 α := map2 Scalar.mul a b

/-- NEON `vrecpsq_f32`, one lane: `2 - a*b`, and `2` for `0 * ∞`. -/
def vrecps (a b : α) : α :=
  if (Scalar.feq a f0 && Scalar.isInf b) || (Scalar.isInf a && Scalar.feq b f0) then f2
  else f2 -. a *. b

/-- NEON `vrsqrtsq_f32`, one lane: `(3 - a*b) / 2`, and `1.5` for `0 * ∞`. -/
def vrsqrts (a b : α) : α :=
  if (Scalar.feq a f0 && Scalar.isInf b) || (Scalar.isInf a && Scalar.feq b f0) then Scalar.lit 3 2
  else (Scalar.lit 3 1 -. a *. b) /. f2

/-- one lane of `graphene_simd4f_reciprocal`: SSE (simd4f.h:303-312, Newton step with
the estimate masked to 0 when the operand is 0), GCC (simd4f.h:966-974), NEON
(simd4f.h:1291-1311, two Newton steps), scalar (simd4f.c:1231-1248). -/
def recip1 (bk : Backend) (v : α) : α :=
  match bk with
  | .sse _ _ =>
    let s := Scalar.rcpEst v
    let m := v *. (if Scalar.feq v f0 then f0 else s)
    s *. (f2 -. m)
  | .gcc =>
    if Scalar.abs v >. fltEps then f1 /. v else Scalar.copysign Scalar.inf v
  | .neon =>
    let e0 := Scalar.rcpEst v
    let e1 := vrecps e0 v *. e0
    vrecps e1 v *. e1
  | .scalar true => f1 /. v
  | .scalar false =>
    if Scalar.abs v >. fltEps then f1 /. v else Scalar.copysign Scalar.inf v

/-- `graphene_simd4f_reciprocal`, all lanes. -/
def reciprocal (bk : Backend) (v : V4 α) : V4 α := map1 (recip1 bk) v

/-- one lane of `graphene_simd4f_div`: SSE `_mm_div_ps` (simd4f.h:293-296),
GCC `/` (simd4f.h:1003), NEON multiplication by the approximate reciprocal
(simd4f.h:1313-1317), scalar with a guard on tiny divisors (simd4f.c:1313-1324). -/
def div1 (bk : Backend) (a b : α) : α :=
  match bk with
  | .sse _ _ => a /. b
  | .gcc => a /. b
  | .neon => a *. recip1 bk b
  | .scalar _ => if Scalar.abs b >. fltEps then a /. b else f0

/-- `graphene_simd4f_div`, all lanes. -/
def div (bk : Backend) (a b : V4 α) : V4 α := map2 (div1 bk) a b

/-- `_simd4f_rsqrt_iter` (simd4f.h:1319-1323), one lane. -/
def neonRsqrtIter (v est : α) : α := est *. vrsqrts (est *. v) est

/-- one lane of `graphene_simd4f_rsqrt`: SSE (simd4f.h:314-322, one Newton step), GCC
(simd4f.h:986-998), NEON (simd4f.h:1325-1331, three Newton steps), scalar
(simd4f.c:1262-1272). -/
def rsqrt1 (bk : Backend) (v : α) : α :=
  match bk with
  | .sse _ _ =>
    let s := Scalar.rsqrtEst v
    (s *. Scalar.lit 1 2) *. (Scalar.lit 3 1 -. s *. (v *. s))
  | .gcc => if Scalar.feq v f0 then f0 else f1 /. Scalar.sqrt v
  | .neon =>
    neonRsqrtIter v (neonRsqrtIter v (neonRsqrtIter v (Scalar.rsqrtEst v)))
  | .scalar _ => if Scalar.abs v >. fltEps then f1 /. Scalar.sqrt v else f0

/-- `graphene_simd4f_rsqrt`, all lanes. -/
def rsqrt (bk : Backend) (v : V4 α) : V4 α := map1 (rsqrt1 bk) v

/-- one lane of `graphene_simd4f_sqrt`: exact instruction or `sqrtf` on SSE, GCC and
scalar (simd4f.h:298-301, 976-984; simd4f.c:1250-1260); NEON computes
`1 / (1/√v)` and forces `+0` for an operand whose bits are all zero
(simd4f.h:1333-1339). -/
def sqrt1 (bk : Backend) (v : α) : α :=
  match bk with
  | .neon =>
    if Scalar.feq v f0 && !Scalar.signbit v then f0 else recip1 bk (rsqrt1 bk v)
  | _ => Scalar.sqrt v

/-- `graphene_simd4f_sqrt`, all lanes. -/
def sqrt (bk : Backend) (v : V4 α) : V4 α := map1 (sqrt1 bk) v

/-- `graphene_simd4f_cross3`: SSE via shuffles computes lane `w` as `a.w*b.w - a.w*b.w`
(simd4f.h:324-332); GCC, NEON and scalar force it to `0.f`
(simd4f.h:1005-1013, 1341-1355; simd4f.c:1326-1334).  NEON writes each product
with its factors and the difference rotated; the lane results are
`b.z*a.y - a.z*b.y` etc. -/
def cross3 (bk : Backend) (a b : V4 α) : V4 α :=
  match bk with
  | .sse _ _ =>
    ⟨a.y *. b.z -. a.z *. b.y, a.z *. b.x -. a.x *. b.z, a.x *. b.y -. a.y *. b.x,
     a.w *. b.w -. a.w *. b.w⟩
  | .neon =>
    ⟨b.z *. a.y -. a.z *. b.y, b.x *. a.z -. a.x *. b.z, b.y *. a.x -. a.y *. b.x, f0⟩
  | _ =>
    ⟨a.y *. b.z -. a.z *. b.y, a.z *. b.x -. a.x *. b.z, a.x *. b.y -. a.y *. b.x, f0⟩

/-- `graphene_simd4f_dot3_scalar`: the association order is the backend's: SSE2
`(xx + zz) + (yy + 0)` and SSE4.1 `_mm_dp_ps 0x7f` (simd4f.h:334-356), GCC
(simd4f.h:1015-1026), NEON (simd4f.h:1357-1367), scalar (simd4f.c:1343-1348). -/
def dot3Scalar (bk : Backend) (a b : V4 α) : α :=
  match bk with
  | .sse false _ => ((a.x *. b.x) +. (a.z *. b.z)) +. ((a.y *. b.y) +. f0)
  | .sse true _ => ((a.x *. b.x) +. (a.y *. b.y)) +. ((a.z *. b.z) +. f0)
  | _ => ((a.x *. b.x) +. (a.y *. b.y)) +. (a.z *. b.z)

/-- `graphene_simd4f_dot3` (same lines): the scalar in every lane. -/
def dot3 (bk : Backend) (a b : V4 α) : V4 α := splat (dot3Scalar bk a b)

/-- one lane of `graphene_simd4f_min`: `a < b ? a : b` (`_mm_min_ps` has the same
semantics; simd4f.h:358-361, 1028-1036; simd4f.c:1350-1358); NEON `vminq_f32`
propagates a NaN from either side and gives `-0` for two zeros of which one is
negative (simd4f.h:1369-1372). -/
def min1 (bk : Backend) (a b : α) : α :=
  match bk with
  | .neon =>
    if Scalar.isNaN a then a else if Scalar.isNaN b then b
    else if Scalar.feq a f0 && Scalar.feq b f0 then (if Scalar.signbit a then a else b)
    else cMin a b
  | _ => cMin a b

/-- one lane of `graphene_simd4f_max` (simd4f.h:363-366, 1038-1046, 1374-1377;
simd4f.c:1360-1368). -/
def max1 (bk : Backend) (a b : α) : α :=
  match bk with
  | .neon =>
    if Scalar.isNaN a then a else if Scalar.isNaN b then b
    else if Scalar.feq a f0 && Scalar.feq b f0 then (if Scalar.signbit a then b else a)
    else cMax a b
  | _ => cMax a b

/-- `graphene_simd4f_min`, all lanes. -/
def min (bk : Backend) (a b : V4 α) : V4 α := map2 (min1 bk) a b
/-- `graphene_simd4f_max`, all lanes. -/
def max (bk : Backend) (a b : V4 α) : V4 α := map2 (max1 bk) a b

/-- `graphene_simd4f_shuffle_wxyz` (simd4f.h:368-371; simd4f.c:1370-1374). -/
def shuffleWXYZ (s : V4 α) : V4 α := ⟨s.w, s.x, s.y, s.z⟩
/-- `graphene_simd4f_shuffle_zwxy` (simd4f.h:373-376; simd4f.c:1376-1380). -/
def shuffleZWXY (s : V4 α) : V4 α := ⟨s.z, s.w, s.x, s.y⟩
/-- `graphene_simd4f_shuffle_yzwx` (simd4f.h:378-381; simd4f.c:1382-1386). -/
def shuffleYZWX (s : V4 α) : V4 α := ⟨s.y, s.z, s.w, s.x⟩
/-- `graphene_simd4f_zero_w` (simd4f.h:383-387; simd4f.c:1388-1392). -/
def zeroW (s : V4 α) : V4 α := ⟨s.x, s.y, s.z, f0⟩
/-- `graphene_simd4f_zero_zw` (simd4f.h:389-392; simd4f.c:1394-1398). -/
def zeroZW (s : V4 α) : V4 α := ⟨s.x, s.y, f0, f0⟩
/-- `graphene_simd4f_merge_w` (simd4f.h:394-398; simd4f.c:1400-1405). -/
def mergeW (s : V4 α) (v : α) : V4 α := ⟨s.x, s.y, s.z, v⟩
/-- `graphene_simd4f_merge_high` (simd4f.h:400-403; simd4f.c:1407-1412). -/
def mergeHigh (a b : V4 α) : V4 α := ⟨a.z, a.w, b.z, b.w⟩
/-- `graphene_simd4f_merge_low` (simd4f.h:405-408; simd4f.c:1414-1419). -/
def mergeLow (a b : V4 α) : V4 α := ⟨a.x, a.y, b.x, b.y⟩

/-- `graphene_simd4f_flip_sign_0101` (simd4f.h:415-424; simd4f.c:1421-1425). -/
def flipSign0101 (s : V4 α) : V4 α := ⟨s.x, Scalar.neg s.y, s.z, Scalar.neg s.w⟩
/-- `graphene_simd4f_flip_sign_1010` (simd4f.h:426-435; simd4f.c:1427-1431). -/
def flipSign1010 (s : V4 α) : V4 α := ⟨Scalar.neg s.x, s.y, Scalar.neg s.z, s.w⟩

/-- `approx_equal` of the scalar backend (simd4f.c:1433-1454). -/
def approxEqual (a b epsilon : α) : Bool :=
  if Scalar.isInf a && Scalar.isInf b then true
  else
    let diff := Scalar.abs (a -. b)
    if Scalar.isNaN diff then true
    else if diff <=. epsilon then true
    else
      let absA := Scalar.abs a
      let absB := Scalar.abs b
      let largest := if absB >. absA then absB else absA
      diff <=. largest *. epsilon

/-- one lane of `graphene_simd4f_cmp_eq`: C `==` on SSE, GCC and NEON
(simd4f.h:437-441, 1100-1111, 1453-1460), `approx_equal` on scalar
(simd4f.c:1456-1464). -/
def eq1 (bk : Backend) (a b : α) : Bool :=
  match bk with
  | .scalar _ => approxEqual a b fltEps
  | _ => Scalar.feq a b

/-- `graphene_simd4f_cmp_eq`: all lanes equal. -/
def cmpEq (bk : Backend) (a b : V4 α) : Bool :=
  eq1 bk a.x b.x && eq1 bk a.y b.y && eq1 bk a.z b.z && eq1 bk a.w b.w

/-- `graphene_simd4f_cmp_neq` (simd4f.h:443-447, 1113-1116, 1462-1469; simd4f.c:1466-1474):
some lane differs. -/
def cmpNeq (bk : Backend) (a b : V4 α) : Bool :=
  !eq1 bk a.x b.x || !eq1 bk a.y b.y || !eq1 bk a.z b.z || !eq1 bk a.w b.w

/-- `graphene_simd4f_cmp_lt` (simd4f.h:449-453; simd4f.c:1476-1484). -/
def cmpLt (a b : V4 α) : Bool := a.x <. b.x && a.y <. b.y && a.z <. b.z && a.w <. b.w
/-- `graphene_simd4f_cmp_le` (simd4f.h:455-459; simd4f.c:1486-1494). -/
def cmpLe (a b : V4 α) : Bool := a.x <=. b.x && a.y <=. b.y && a.z <=. b.z && a.w <=. b.w
/-- `graphene_simd4f_cmp_ge` (simd4f.h:461-465; simd4f.c:1496-1504). -/
def cmpGe (a b : V4 α) : Bool := a.x >=. b.x && a.y >=. b.y && a.z >=. b.z && a.w >=. b.w
/-- `graphene_simd4f_cmp_gt` (simd4f.h:467-471; simd4f.c:1506-1514). -/
def cmpGt (a b : V4 α) : Bool := a.x >. b.x && a.y >. b.y && a.z >. b.z && a.w >. b.w

/-- one lane of `graphene_simd4f_neg`: sign flip on SSE, NEON, scalar (simd4f.h:473-482,
1507-1510; simd4f.c:1516-1520); multiplication by `-1.f` on GCC (simd4f.h:1167-1174). -/
def neg1 (bk : Backend) (a : α) : α :=
  match bk with
  | .gcc => a *. Scalar.lit (-1) 1
  | _ => Scalar.neg a

/-- `graphene_simd4f_neg`, all lanes. -/
def neg (bk : Backend) (s : V4 α) : V4 α := map1 (neg1 bk) s

/-- `graphene_simd4f_ceil` (simd4f.h:485-500; simd4f.c:1522-1526). -/
def ceil (s : V4 α) : V4 α := map1 Scalar.ceil s
/-- `graphene_simd4f_floor` (simd4f.h:489-509; simd4f.c:1528-1532). -/
def floor (s : V4 α) : V4 α := map1 Scalar.floor s

/-- `graphene_simd4f_madd`: fused with AVX (simd4f.h:513-516), otherwise a product and a
sum (simd4f.h:518-521, 1192-1195, 1537-1540; simd4f.c:1534-1540). -/
def madd (bk : Backend) (a b c : V4 α) : V4 α :=
  match bk with
  | .sse _ true => ⟨Scalar.fma a.x b.x c.x, Scalar.fma a.y b.y c.y,
                     Scalar.fma a.z b.z c.z, Scalar.fma a.w b.w c.w⟩
  | _ => add (mul a b) c

/-- `graphene_simd4f_sum` (simd4f.h:2030-2040). -/
def sum (v : V4 α) : V4 α :=
  add (add (splatX v) (splatY v)) (add (splatZ v) (splatW v))
/-- `graphene_simd4f_sum_scalar` (simd4f.h:2053-2057). -/
def sumScalar (v : V4 α) : α := (sum v).x
/-- `graphene_simd4f_dot4` (simd4f.h:2072-2077). -/
def dot4 (a b : V4 α) : V4 α := sum (mul a b)
/-- `graphene_simd4f_dot2` (simd4f.h:2092-2101). -/
def dot2 (a b : V4 α) : V4 α :=
  let m := mul a b
  add (splatX m) (splatY m)
/-- `graphene_simd4f_length4` (simd4f.h:2114-2118). -/
def length4 (bk : Backend) (v : V4 α) : V4 α := sqrt bk (dot4 v v)
/-- `graphene_simd4f_length3` (simd4f.h:2131-2135). -/
def length3 (bk : Backend) (v : V4 α) : V4 α := sqrt bk (dot3 bk v v)
/-- `graphene_simd4f_length2` (simd4f.h:2148-2152). -/
def length2 (bk : Backend) (v : V4 α) : V4 α := sqrt bk (dot2 v v)
/-- `graphene_simd4f_normalize4` (simd4f.h:2165-2170). -/
def normalize4 (bk : Backend) (v : V4 α) : V4 α := mul v (rsqrt bk (dot4 v v))
/-- `graphene_simd4f_normalize3` (simd4f.h:2183-2188). -/
def normalize3 (bk : Backend) (v : V4 α) : V4 α := mul v (rsqrt bk (dot3 bk v v))
/-- `graphene_simd4f_normalize2` (simd4f.h:2201-2206). -/
def normalize2 (bk : Backend) (v : V4 α) : V4 α := mul v (rsqrt bk (dot2 v v))
/-- `graphene_simd4f_is_zero4` (simd4f.h:2219-2224). -/
def isZero4 (bk : Backend) (v : V4 α) : Bool := cmpEq bk v initZero
/-- `graphene_simd4f_is_zero3` (simd4f.h:2237-2243). -/
def isZero3 (v : V4 α) : Bool :=
  Scalar.abs v.x <=. fltEps && Scalar.abs v.y <=. fltEps && Scalar.abs v.z <=. fltEps
/-- `graphene_simd4f_is_zero2` (simd4f.h:2256-2261). -/
def isZero2 (v : V4 α) : Bool :=
  Scalar.abs v.x <=. fltEps && Scalar.abs v.y <=. fltEps
/-- `graphene_simd4f_interpolate` (simd4f.h:2276-2286). -/
def interpolate (a b : V4 α) (f : α) : V4 α :=
  let oneMinusF := sub (splat f1) (splat f)
  add (mul oneMinusF a) (mul (splat f) b)
/-- `graphene_simd4f_clamp` (simd4f.h:2301-2309). -/
def clamp (bk : Backend) (v lo hi : V4 α) : V4 α := min bk (max bk lo v) hi
/-- `graphene_simd4f_clamp_scalar` (simd4f.h:2324-2332). -/
def clampScalar (bk : Backend) (v : V4 α) (lo hi : α) : V4 α := clamp bk v (splat lo) (splat hi)
/-- `graphene_simd4f_min_val` (simd4f.h:2345-2354). -/
def minVal (bk : Backend) (v : V4 α) : V4 α :=
  let s := min bk v (shuffleWXYZ v)
  min bk s (shuffleZWXY s)
/-- `graphene_simd4f_max_val` (simd4f.h:2367-2376). -/
def maxVal (bk : Backend) (v : V4 α) : V4 α :=
  let s := max bk v (shuffleWXYZ v)
  max bk s (shuffleZWXY s)

end Simd4f
end Graphene
