import Verif.Spec.TM

/-!
# Model of the past-configuration table

`/repo/src/prover.rs` L236-338 `PastConfig`, `PastConfigs`.  `i32` cycles are ℤ (overflow is not
modelled); a Rust panic is `.error ()`.
-/

namespace BB

abbrev Deltas := Int × Int × Int

/-- `/repo/src/prover.rs` L240-302: the recorded cycles, oldest first. -/
abbrev PastConfig := List Int

/-- The body of the loop at `/repo/src/prover.rs` L273-299 for one `i`: `none` is `continue`,
`some r` is `return r`. -/
def tryMultiplier (e d c b a i : Int) : Option (Option Deltas) :=
  let p1 := a - b * i
  let p2 := b - c * i
  let diff := p1 - p2
  let p3 := c - d * i
  if p2 - p3 != diff then none
  else
    let p4 := d - e * i
    if p3 - p4 != diff then none
    else
      let nxt1 := a * i + p1 + diff
      let nxt2 := nxt1 * i + p1 + 2 * diff
      let nxt3 := nxt2 * i + p1 + 3 * diff
      if a > nxt1 || nxt1 > nxt2 || nxt2 > nxt3 then some none
      else some (some (nxt1 - a, nxt2 - nxt1, nxt3 - nxt2))

/-- The loop `for i in 1..=4` (`/repo/src/prover.rs` L273-301). -/
def searchMultiplier (e d c b a : Int) : Option Deltas :=
  ([1, 2, 3, 4].findSome? (tryMultiplier e d c b a)).getD none

/-- `/repo/src/prover.rs` L252-302 `PastConfig::next_deltas`. -/
def PastConfig.nextDeltas (past : PastConfig) (cycle : Int) :
    Except Unit (Option Deltas × PastConfig) :=
  let cycles := past ++ [cycle]
  if cycles.length < 5 then .ok (none, cycles)
  else
    match cycles with
    | [e, d, c, b, a] => .ok (searchMultiplier e d c b a, [d, c, b, a])
    | _ => .error ()

/-- `/repo/src/prover.rs` L305-308 `PastConfigs`: a map from states. -/
abbrev PastConfigs := List (State × PastConfig)

/-- `BTreeMap::insert`, keeping one entry per key. -/
def assocInsert {κ β : Type} [BEq κ] (l : List (κ × β)) (k : κ) (v : β) : List (κ × β) :=
  (k, v) :: l.filter (fun e => e.1 != k)

/-- `/repo/src/prover.rs` L312-317 `PastConfigs::new`. -/
def PastConfigs.new (state : State) (cycle : Int) : PastConfigs := [(state, [cycle])]

/-- `/repo/src/prover.rs` L319-328 `PastConfigs::next_deltas` (a new state is entered with the
current cycle, and `next_deltas` then pushes the same cycle again). -/
def PastConfigs.nextDeltas (t : PastConfigs) (state : State) (cycle : Int) :
    Except Unit (Option Deltas × PastConfigs) :=
  match PastConfig.nextDeltas ((t.lookup state).getD [cycle]) cycle with
  | .error e => .error e
  | .ok (r, past) => .ok (r, assocInsert t state past)

/-- `/repo/src/prover.rs` L330-332 `delete_configs`. -/
def PastConfigs.delete (t : PastConfigs) (state : State) : PastConfigs :=
  t.filter (fun e => e.1 != state)

end BB
