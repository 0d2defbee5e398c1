import Verif.Model.Access
import Verif.Model.Alloc
import Verif.Model.Box
import Verif.Model.Box2d
import Verif.Model.Consts
import Verif.Model.Decompose
import Verif.Model.Euler
import Verif.Model.Fp
import Verif.Model.Frustum
import Verif.Model.GMatrix
import Verif.Model.GType
import Verif.Model.Heap
import Verif.Model.Inline
import Verif.Model.Intrinsics
import Verif.Model.Memory
import Verif.Model.Once
import Verif.Model.Plane
import Verif.Model.Point
import Verif.Model.Print
import Verif.Model.Quad
import Verif.Model.Quat
import Verif.Model.Ray
import Verif.Model.RealScalar
import Verif.Model.Rect
import Verif.Model.Scalar
import Verif.Model.Simd4f
import Verif.Model.Simd4x4f
import Verif.Model.Sphere
import Verif.Model.Triangle
import Verif.Model.Unsafe
import Verif.Model.Vec
import Verif.Spec.Box
import Verif.Spec.Float
import Verif.Spec.Mat
import Verif.Spec.Plane
import Verif.Spec.Rect
import Verif.Spec.Solid
import Verif.Proofs.Approx
import Verif.Proofs.Attr
import Verif.Proofs.BoxLemmas
import Verif.Proofs.FpLemmas
import Verif.Proofs.Grid
import Verif.Proofs.GridRect
import Verif.Proofs.KDecide
import Verif.Proofs.Newton
import Verif.Proofs.NormLemmas
import Verif.Proofs.RealLemmas
import Verif.Proofs.RectLemmas
import Verif.Proofs.Round
import Verif.Proofs.Round2
import Verif.Proofs.Round3
import Verif.Proofs.Sqrt
import Verif.Proofs.UnsafeLemmas
import Verif.Props.Access
import Verif.Props.Aliasing1
import Verif.Props.Aliasing2
import Verif.Props.Allocs
import Verif.Props.Backends1
import Verif.Props.Backends2
import Verif.Props.Backends3
import Verif.Props.Backends4
import Verif.Props.Backends5
import Verif.Props.Boxes1
import Verif.Props.Boxes2
import Verif.Props.Boxes3
import Verif.Props.Equality
import Verif.Props.Euler1
import Verif.Props.Euler2
import Verif.Props.Euler3
import Verif.Props.Euler4
import Verif.Props.Euler5
import Verif.Props.Float1
import Verif.Props.Float10
import Verif.Props.Float11
import Verif.Props.Float12
import Verif.Props.Float13
import Verif.Props.Float14
import Verif.Props.Float15
import Verif.Props.Float16
import Verif.Props.Float17
import Verif.Props.Float18
import Verif.Props.Float19
import Verif.Props.Float2
import Verif.Props.Float20
import Verif.Props.Float21
import Verif.Props.Float22
import Verif.Props.Float23
import Verif.Props.Float24
import Verif.Props.Float25
import Verif.Props.Float26
import Verif.Props.Float27
import Verif.Props.Float28
import Verif.Props.Float29
import Verif.Props.Float3
import Verif.Props.Float30
import Verif.Props.Float31
import Verif.Props.Float32
import Verif.Props.Float33
import Verif.Props.Float34
import Verif.Props.Float35
import Verif.Props.Float36
import Verif.Props.Float37
import Verif.Props.Float38
import Verif.Props.Float39
import Verif.Props.Float4
import Verif.Props.Float40
import Verif.Props.Float41
import Verif.Props.Float42
import Verif.Props.Float43
import Verif.Props.Float44
import Verif.Props.Float45
import Verif.Props.Float46
import Verif.Props.Float47
import Verif.Props.Float5
import Verif.Props.Float6
import Verif.Props.Float7
import Verif.Props.Float8
import Verif.Props.Float9
import Verif.Props.Frustums
import Verif.Props.Lifecycle
import Verif.Props.Matrix1
import Verif.Props.Matrix10
import Verif.Props.Matrix11
import Verif.Props.Matrix12
import Verif.Props.Matrix13
import Verif.Props.Matrix14
import Verif.Props.Matrix2
import Verif.Props.Matrix3
import Verif.Props.Matrix4
import Verif.Props.Matrix5
import Verif.Props.Matrix6
import Verif.Props.Matrix7
import Verif.Props.Matrix8
import Verif.Props.Matrix9
import Verif.Props.Onces
import Verif.Props.Planes
import Verif.Props.Points
import Verif.Props.Print1
import Verif.Props.Quads
import Verif.Props.Quats1
import Verif.Props.Quats2
import Verif.Props.Quats3
import Verif.Props.Quats4
import Verif.Props.Rays1
import Verif.Props.Rays2
import Verif.Props.Rect1
import Verif.Props.Rect2
import Verif.Props.Routes
import Verif.Props.Simd
import Verif.Props.Spheres
import Verif.Props.Triangles
import Verif.Props.Types
import Verif.Props.Unsafe1
import Verif.Props.Unsafe2
import Verif.Props.Unsafe3
import Verif.Props.Unsafe4
import Verif.Props.Unsafe5
import Verif.Props.Unsafe6
import Verif.Props.Unsafe7
import Verif.Props.Unsafe8
import Verif.Props.Vectors1
import Verif.Props.Vectors2
import Verif.Props.Vectors3
import Verif.Props.Vectors4
