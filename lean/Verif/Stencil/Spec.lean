import Verif.Stencil.Model

/-!
# Specification: stencils on meshes of equilateral triangles
-/

namespace Verif.Stencil

/-- A node, by its j and i. -/
abbrev Node := ℤ × ℤ

/-- Twice the x of a node, in sides of triangles: each second row is half a side to the right. -/
def twoX (a : Node) : ℤ := 2 * a.2 + a.1 % 2

/-- Nodes which are one side of a triangle apart in the plane, rows being √3/2 sides apart: the square of the distance, four times. -/
def Adj (a b : Node) : Prop := (twoX a - twoX b) ^ 2 + 3 * (a.1 - b.1) ^ 2 = 4

/-- There is a way of `k` sides from one node to another. -/
inductive Walk : ℕ → Node → Node → Prop
  | nil (a) : Walk 0 a a
  | step {k a b c} : Adj a b → Walk k b c → Walk (k + 1) a c

/-- The shortest way from one node to another has `k` sides. -/
def Steps (k : ℕ) (a b : Node) : Prop := Walk k a b ∧ ∀ m < k, ¬ Walk m a b

/-- The nodes which a stencil covers, each once, and their weights: the pattern gives the weight by the number of sides from the centre. -/
structure Disc {K : Type*} (p : List K) (a : Node) (nodes : List Node) (w : Node → K) : Prop where
  nodup : nodes.Nodup
  mem : ∀ b, b ∈ nodes ↔ ∃ k, k < p.length ∧ Steps k a b
  weight : ∀ b k, k < p.length → Steps k a b → p[k]? = some (w b)

/-- The middle of the pattern, six times the next, twelve times the one after, and so on. -/
def weightTotal {K : Type*} [Field K] (p : List K) : K := p.getD 0 0 + ((List.range (p.length - 1)).map fun (k : ℕ) => 6 * ((k + 1 : ℕ) : K) * p.getD (k + 1) 0).sum

/-- The value at a node, whether in the mesh or beyond. -/
def valueAt {K : Type*} (m : TM K) (borderValue : Option K) (b : Node) : Option K :=
  if 0 ≤ b.1 ∧ b.1 < m.nj ∧ 0 ≤ b.2 ∧ b.2 < m.ni then m.z b.1.toNat b.2.toNat else borderValue

/-- Whether a node is in the mesh. -/
def Inside {K : Type*} (m : TM K) (b : Node) : Prop := 0 ≤ b.1 ∧ b.1 < m.nj ∧ 0 ≤ b.2 ∧ b.2 < m.ni

/-- A mesh as the constructor makes them. -/
structure Made {K : Type*} [Field K] [LinearOrder K] (m : TM K) : Prop where
  t : 0 < m.t
  nj : 1 < m.nj
  ni : 1 < m.ni
  origin : ∀ o, m.origin = some o → o.2.2 = 0

end Verif.Stencil
