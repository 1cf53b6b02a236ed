/-
The models with integer counts, written with the terms of `Verif.Model.Num`.
-/
import Verif.Model.SymRun

namespace BB

/-- A rule that only adds. -/
def Rule.Adds (rule : Rule) : Prop := ∀ e ∈ rule, ∃ d, e.2 = Op.plus d

/-- A prover that knows only rules that add. -/
def Prover.Adds (pr : Prover) : Prop :=
  ∀ slot known, (slot, known) ∈ pr.rules → ∀ e ∈ known, Rule.Adds e.2

namespace Sym

/-- The same block with its count as a term. -/
def ofBlock (b : Block) : SBlock := ⟨b.color, .int b.count, none⟩

def ofTape (t : Tape) : STape := ⟨t.lspan.map ofBlock, t.scan, t.rspan.map ofBlock⟩

/-- The same numbered block with its count as a term. -/
def ofEBlock (b : EBlock) : SBlock := ⟨b.color, .int b.count, b.tag⟩

def ofEnumTape (t : EnumTape) : SEnumTape :=
  ⟨⟨t.tape.lspan.map ofEBlock, t.tape.scan, t.tape.rspan.map ofEBlock⟩, t.lOffset, t.rOffset,
    t.lEdge, t.rEdge⟩

def ofOp : Op → SOp
  | .plus d => .plus d
  | .mult m a => .mult m a

def ofRule (rule : Rule) : SRule := rule.map fun e => (e.1, ofOp e.2)

/-- Exceptions; Python's own, of lists and numbers, are not told apart. -/
def ofErr : BB.Err → RErr
  | .unknownRule => .unknownRule
  | .infiniteRule => .infiniteRule
  | .suspectedRule a s => .suspectedRule a s
  | .ruleLimit => .ruleLimit
  | .assertion => .assertion
  | .configLimit => .num .other
  | .indexError => .num .other
  | .zeroDivision => .num .other
  | .negCount => .num .other

def ofResult : RunRes → SRunRes
  | .infrul => .infrul
  | .limrul => .limrul
  | .cfglim => .cfglim
  | .spnout => .spnout
  | .xlimit => .xlimit
  | .undfnd slot => .undfnd slot
  | .crash e => .crash (ofErr e)

/-- The same report with its counts as terms. -/
def ofOut (r : RunOut) : SRunOut :=
  ⟨ofResult r.result, r.steps, r.cycles, ofTape r.tape, .int r.rulapp, r.blanks⟩

end Sym
end BB
