import Verif.Model.Steps

/-! What an observer sees of the steps of a computation. -/

namespace Dstu.Spec

/-- The observer who sees the conditions and which table is read, but not which entry of it: on a machine where reading every entry takes the same time, the running time. -/
def timing (t : List CpuStep) : List CpuStep :=
  t.map fun
    | .test b => .test b
    | .look tab _ => .look tab 0

/-- The observer who sees which group of 16 entries is read: 64 bytes, a cache line. -/
def lines (t : List CpuStep) : List CpuStep :=
  t.map fun
    | .test b => .test b
    | .look tab i => .look tab (i >>> 4)

end Dstu.Spec
