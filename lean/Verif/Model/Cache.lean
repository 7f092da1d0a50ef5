import Verif.Model.Basic
/-!
Finite maps and the object property cache (mts/protocol/objectpropertycache.cpp).
-/
namespace Mtp

/-- `QHash`/`QMap` as a list of pairs; iteration order is the list order (Qt's order is unspecified,
theorems quantify over it where it matters). -/
abbrev AMap (K V : Type) := List (K × V)

namespace AMap
variable {K V : Type} [DecidableEq K]

/-- `value(k)` / `contains(k)`. -/
def get : AMap K V → K → Option V
  | [], _ => none
  | (x, v) :: m, k => if k = x then some v else get m k
/-- `remove(k)`. -/
def erase (m : AMap K V) (k : K) : AMap K V := m.filter (fun e => e.1 ≠ k)
/-- `insert(k, v)` / `m[k] = v`: replaces an existing entry. -/
def insert (m : AMap K V) (k : K) (v : V) : AMap K V := (k, v) :: m.erase k

end AMap

/-- `m_propertyMap` (objectpropertycache.h): handle → property code → value. Values are abstract. -/
abbrev Cache (V : Type) := AMap Nat (AMap Nat V)

namespace Cache
variable {V : Type}

/-- `m_propertyMap[handle]`: a default constructed (empty) map when absent. -/
def at_ (c : Cache V) (h : Nat) : AMap Nat V := (AMap.get c h).getD []

/-- objectpropertycache.cpp:37-44 `add(handle, code, value)`. -/
def add (c : Cache V) (h p : Nat) (v : V) : Cache V :=
  AMap.insert c h (AMap.insert (c.at_ h) p v)

/-- objectpropertycache.cpp:53-61 `add(handle, list)`. -/
def addList (c : Cache V) (h : Nat) (l : List (Nat × V)) : Cache V :=
  l.foldl (fun c e => c.add h e.1 e.2) c

/-- objectpropertycache.cpp:63-72 `remove(handle, code = 0)`: `operator[]` creates the entry first. -/
def remove (c : Cache V) (h : Nat) (p : Nat := 0) : Cache V :=
  let inner := AMap.erase (c.at_ h) p
  let c := AMap.insert c h inner
  if inner.isEmpty ∨ p = 0 then AMap.erase c h else c

/-- objectpropertycache.cpp:81-89 `remove(handle, list)`. -/
def removeList (c : Cache V) (h : Nat) (l : List Nat) : Cache V :=
  l.foldl (fun c p => c.remove h p) c

/-- objectpropertycache.cpp:91-106 `get(handle, code, value)`. -/
def get (c : Cache V) (h p : Nat) : Option V :=
  match AMap.get c h with
  | none => none
  | some m => AMap.get m p

/-- objectpropertycache.cpp:115-130 `get(handle, list, notFound)`: entries of the list are
(code, value so far); found entries stay in the list with the cached value, the others are moved to
`notFound`; the result flag is `notFoundList.isEmpty()`. -/
def getList (c : Cache V) (h : Nat) : List (Nat × V) → List (Nat × V) × List (Nat × V)
  | [] => ([], [])
  | (p, old) :: r =>
    let (found, notFound) := c.getList h r
    match c.get h p with
    | some v => ((p, v) :: found, notFound)
    | none => (found, (p, old) :: notFound)

/-- Operations on the cache. -/
inductive Op (V : Type) where
  | add (h p : Nat) (v : V)
  | addList (h : Nat) (l : List (Nat × V))
  | remove (h p : Nat)
  | removeList (h : Nat) (l : List Nat)
  | clear
  | lookup (h p : Nat)

/-- The state after an operation (`clear`: objectpropertycache.cpp:132-137). -/
def step (c : Cache V) : Op V → Cache V
  | .add h p v => c.add h p v
  | .addList h l => c.addList h l
  | .remove h p => c.remove h p
  | .removeList h l => c.removeList h l
  | .clear => []
  | .lookup _ _ => c

end Cache
end Mtp
