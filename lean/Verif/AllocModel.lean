import Verif.Prelude
/-!
# Model of the platform allocator (/repo/PlatformSupport/PlatformSupport.cpp, PlatformSupport.h)

Addresses in the arena are offsets from `memory`, which `malloc` aligns to at least 8. `uint32_t` values are natural numbers below
2^32 with wrap-around; `size_t` has 64 bits. Single-threaded, as the header says (PlatformSupport.h line 49).
-/
namespace Verif.AllocModel

/-- MEMORY_SIZE, PlatformSupport.cpp lines 24-26. -/
def memorySize : Nat := 32767

/-- The globals of lines 28-31; `setup` is `memory != nullptr`, `cur` is `currentMemory - memory`, `bytes` the arena's content. -/
structure State where
  setup : Bool
  used : Nat
  cur : Nat
  bytes : List Nat
  deriving DecidableEq, Repr

/-- Before the first `PlatformSetup` (lines 28-31). -/
def initial : State := { setup := false, used := 0, cur := 0, bytes := [] }

/-- A pointer returned by the allocator: null, an arena address, or a block of the C heap with its content. -/
inductive Ptr
  | null
  | arena (off : Nat)
  | heap (content : List Nat)
  deriving DecidableEq, Repr

/-- `Align(required, sizeof(double))`, PlatformSupport.h line 42, assigned to a uint32_t: the sum is computed in size_t, so only the
assignment wraps. -/
def align8 (n : Nat) : Nat := (n + 7) / 8 * 8 % 4294967296

/-- `memset(ret, 0, size)` inside the arena; writing past its end is undefined. -/
def zero (bytes : List Nat) (off size : Nat) : Res (List Nat) :=
  if off + size ≤ bytes.length then .ok (bytes.take off ++ List.replicate size 0 ++ bytes.drop (off + size)) else .ub

/-- `my_operator_new_replacement`, lines 33-50. `heap` says whether the C `malloc` of lines 36-37 succeeds. -/
def new (s : State) (size : Nat) (heap : Bool) : Res (State × Ptr) :=
  if s.setup = false then
    if heap then .ok (s, .heap (List.replicate size 0)) else .ub
  else
    let required := align8 (size % 4294967296)
    if (s.used + required) % 4294967296 > memorySize then .ok (s, .null)
    else
      (zero s.bytes s.cur size) >>= fun b =>
        .ok ({ s with used := (s.used + required) % 4294967296, cur := s.cur + required, bytes := b }, .arena s.cur)

/-- `my_operator_delete_replacement`, lines 51-55: nothing happens to the arena. -/
def delete (s : State) : State := s

/-- `PlatformMemorySetup`, lines 62-70, called by `PlatformSetup`, lines 57-60. `garbage` is the content of the memory `malloc`
returns, `none` when it fails. -/
def setup (s : State) (garbage : Option (List Nat)) : State :=
  match s.setup, garbage with
  | false, some g => { setup := true, used := 0, cur := 0, bytes := g }
  | false, none => { s with used := 0, cur := 0 }
  | true, _ => { s with used := 0, cur := 0 }

/-- A store by the program to one arena byte (not code of the allocator). -/
def store (s : State) (off v : Nat) : Res State :=
  if off < s.bytes.length then .ok { s with bytes := s.bytes.set off v } else .ub

end Verif.AllocModel
