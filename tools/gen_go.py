#!/usr/bin/env python3
"""Generates lean/Verif/Model/{GoController,GoOwner,GoAnswers}.lean from the message types of the Go client
(/repo/e2e/interchaintestv8/types/*/msgs.go). The generated files are committed."""
import os, re, sys
OUT = os.path.join(os.path.dirname(os.path.abspath(__file__)), "..", "lean", "Verif", "Model")
ROOT = "/repo/e2e/interchaintestv8/types"

def parse(path):
    """type name -> (kind, payload, first line, last line)"""
    lines = open(path).read().split("\n")
    types, order, i, comment = {}, [], 0, False
    while i < len(lines):
        l = lines[i]
        if comment:
            comment = "*/" not in l
        elif l.strip().startswith("/*"):
            comment = "*/" not in l
        elif m := re.match(r"type (\w+) struct\s*\{\s*\}", l):
            types[m[1]] = ("struct", [], i + 1, i + 1)
        elif m := re.match(r"type (\w+) struct\s*\{", l):
            a, fs, inner = i, [], False
            i += 1
            while inner or not lines[i].startswith("}"):
                t = lines[i].strip()
                if inner: inner = "*/" not in t
                elif t.startswith("/*"): inner = "*/" not in t
                elif t and not t.startswith("//"):
                    f = re.match(r'(\w+)\s+(\S+)\s+`json:"(\w+)(,omitempty)?"`$', t)
                    assert f, t
                    assert f[2].startswith("*") == bool(f[4]), t
                    fs.append((f[1], f[2], f[3]))
                i += 1
            types[m[1]] = ("struct", fs, a + 1, i + 1)
        elif m := re.match(r"type (\w+) interface", l):
            types[m[1]] = ("interface", None, i + 1, i + 3)
        elif m := re.match(r"type (\w+) (=\s*)?(\*?\w+)$", l):
            types[m[1]] = ("alias", m[3], i + 1, i + 1)
        elif l.startswith("type "): raise Exception(l)
        i += 1
    return types

def emit(path, roots, ns, doc, known=(), read=False):
    """the types that the roots need, without the known ones; how they are written or, with read, how they are read"""
    T = parse(f"{ROOT}/{path}")
    done, out = set(), []
    emit.done = done
    def ty(t, top=True):
        if t.startswith("*"): r = "Option " + ty(t[1:], False)
        elif t.startswith("[]"): r = "Option (List " + ty(t[2:], False) + ")"
        else:
            return {"string": "String", "int": "Nat", "bool": "Bool"}.get(t, t)
        return r if top else f"({r})"
    def fn(t):
        """the function from a value to its JSON tree"""
        if t.startswith("[]"): return f"(sliceJson {fn(t[2:])})"
        assert not t.startswith("*")
        return {"string": "Json.str", "int": "Json.num", "bool": "Json.bool"}.get(t, t + ".json")
    def rd(t):
        """the function that reads a value of the type"""
        if t.startswith("[]"): return f"(goSlice {rd(t[2:])})"
        if t.startswith("*"): return f"(goPointer {rd(t[1:])})"
        return {"string": "goString", "int": "goInt", "bool": "goBool"}.get(t, t + ".ofJson")
    def reader(t, kind, p, cite):
        for u in ([p] if kind == "alias" else [f[1] for f in p]): need(u)
        s = "" if t in known else f"/-- {cite}. -/\n"
        if kind == "alias":
            if t not in known: s += f"abbrev {t} := {ty(p)}\n"
            s += f"/-- Reading `{t}`. -/\nabbrev {t}.ofJson : Json → Option {t} := {rd(p)}\n"
        else:
            if t not in known:
                s += f"structure {t} where\n" + "".join(f"  {n} : {ty(u)}" + (" := none" if u[0] in "*[" else "") + "\n" for n, u, j in p)
            s += f"/-- Reading `{t}`. -/\ndef {t}.ofJson (j : Json) : Option {t} :=\n  goStruct j fun {'fs' if p else '_'} =>\n"
            names = "[" + ", ".join(f'"{j}"' for n, u, j in p) + "]"
            for n, u, j in p: s += f'  ({rd(u)} (goField {names} "{j}" fs)).bind fun x_{n} =>\n'
            s += "  some { " + ", ".join(f"{n} := x_{n}" for n, u, j in p) + " }\n"
            s = s.replace("some {  }", "some {}")
        out.append(s)
    def need(t):
        t = re.sub(r"^(\*|\[\])+", "", t)
        if t in ("string", "int", "bool") or t in done: return
        done.add(t)
        kind, p, a, b = T[t]
        cite = f"`{ROOT}/{path}` " + (f"{a}-{b}" if a != b else f"{a}")
        if read:
            reader(t, kind, p, cite)
        elif kind == "alias":
            need(p)
            out.append(f"/-- {cite}. -/\nabbrev {t} := {ty(p)}\n/-- JSON of `{t}`. -/\nabbrev {t}.json : {t} → Json := {fn(p)}\n")
        elif kind == "interface":
            for x in ("Action_TransferOwnership", "Action_AcceptOwnership", "Action_RenounceOwnership"): need(x)
            out.append(f"""/-- {cite}: an interface and the types that implement it (`nil` is the interface without a value). Marshalling an
interface marshals what is in it, without the name of its type. -/
inductive {t} where
  | nil
  | transferOwnership (x : Action_TransferOwnership)
  | acceptOwnership (x : Action_AcceptOwnership)
  | renounceOwnership (x : Action_RenounceOwnership)
/-- JSON of `{t}`. -/
def {t}.json : {t} → Json
  | .nil => .null
  | .transferOwnership x => Action_TransferOwnership.json x
  | .acceptOwnership x => Action_AcceptOwnership.json x
  | .renounceOwnership x => Action_RenounceOwnership.json x
""")
        else:
            for f in p: need(f[1])
            s = f"/-- {cite}. -/\nstructure {t} where\n"
            for n, u, j in p:
                s += f"  {n} : {ty(u)}" + (" := none" if u[0] in "*[" else "") + "\n"
            s += f"/-- JSON of `{t}`. -/\ndef {t}.json (g : {t}) : Json := .obj (present ["
            s += ", ".join(f'("{j}", g.{n}.map {fn(u[1:])})' if u[0] == "*" else f'("{j}", some ({fn(u)} g.{n}))' for n, u, j in p)
            s += "])\n"
            if not p: s = s.replace("(g : ", "(_ : ")
            out.append(s)
    for r in roots: need(r)
    return f"/-! ## {doc} -/\n\nnamespace {ns}\n\n" + "\n".join(out) + f"\nend {ns}\n"

HEAD = '''import Verif.Json

/-!
# The message types of the Go client

%s, generated by `tools/gen_go.py`: the structures of the Go
programs that drive the contract and the JSON tree that Go's `encoding/json` makes of them (`toString`,
`/repo/e2e/interchaintestv8/types/contract.go` 105-113). A pointer is an `Option`, a slice an `Option` of a list (`nil`
is not the empty slice). Simplifications: an `int` is a natural number (a negative one is text the contract refuses), a
`string` is valid Unicode.
-/
namespace Ica
%s
'''
SHARED = '''
/-- The members of a structure that are written: `omitempty` leaves out nil pointers. -/
def present : List (String × Option Json) → List (String × Json)
  | [] => []
  | (_, none) :: l => present l
  | (k, some j) :: l => (k, j) :: present l

/-- A slice: `nil` is `null`. -/
def sliceJson {α : Type} (f : α → Json) : Option (List α) → Json
  | none => .null
  | some l => .arr (l.map f)
'''
ANSWERS = '''import Verif.Model.GoOwner

/-!
# How the Go client reads answers

`/repo/e2e/interchaintestv8/types/*/msgs.go`, generated by `tools/gen_go.py`: the structures that the Go client fills in
from the answers to queries, and how Go's `encoding/json` (Go 1.22, not in /repo) fills them in from the JSON tree of an
answer. What is absent or `null` leaves the zero value. An error (`none`) is a value of another type or a number that does not
fit. Simplifications: `int` has 64 bits, numbers are natural numbers (no contract answers with others), of several members
of one name only the last counts, and letters are compared without case only by `Char.toLower`.
-/
namespace Ica

/-- The value of a field: the member of this name, or the member that is not the name of any field and is this name without
regard to case. -/
def goField (names : List String) (k : String) (fs : List (String × Json)) : Json :=
  ((fs.filter fun p => p.1 = k || (!names.contains p.1 && p.1.toList.map Char.toLower = k.toList.map Char.toLower)).getLast?.map
    (·.2)).getD .null

/-- A structure. -/
def goStruct {α : Type} (j : Json) (f : List (String × Json) → Option α) : Option α :=
  match j with
  | .null => f []
  | .obj fs => f fs
  | _ => none

/-- A pointer. -/
def goPointer {α : Type} (f : Json → Option α) (j : Json) : Option (Option α) :=
  match j with
  | .null => some none
  | j => (f j).map some

/-- The elements of an array. -/
def goElements {α : Type} (f : Json → Option α) : List Json → Option (List α)
  | [] => some []
  | j :: js => (f j).bind fun x => (goElements f js).map (x :: ·)

/-- A slice. -/
def goSlice {α : Type} (f : Json → Option α) (j : Json) : Option (Option (List α)) :=
  match j with
  | .null => some none
  | .arr l => (goElements f l).map some
  | _ => none

/-- A `string`. -/
def goString (j : Json) : Option String :=
  match j with
  | .null => some ""
  | .str s => some s
  | _ => none

/-- An `int`. -/
def goInt (j : Json) : Option Nat :=
  match j with
  | .null => some 0
  | .num n => if n < 9223372036854775808 then some n else none
  | _ => none

/-- A `bool`. -/
def goBool (j : Json) : Option Bool :=
  match j with
  | .null => some false
  | .bool b => some b
  | _ => none

'''
open(f"{OUT}/GoController.lean", "w").write(
    HEAD % ("`/repo/e2e/interchaintestv8/types/cwicacontroller/msgs.go`", SHARED)
    + emit("cwicacontroller/msgs.go", ["InstantiateMsg", "ExecuteMsg", "QueryMsg"], "GoController", "`cwicacontroller`")
    + "\nend Ica\n")
controller = emit.done
open(f"{OUT}/GoOwner.lean", "w").write(
    (HEAD % ("`/repo/e2e/interchaintestv8/types/cwicaowner/msgs.go`", "")).replace("import Verif.Json", "import Verif.Model.GoController")
    + emit("cwicaowner/msgs.go", ["InstantiateMsg", "ExecuteMsg", "QueryMsg"], "GoOwner", "`cwicaowner`")
    + "\nend Ica\n")
owner = emit.done
open(f"{OUT}/GoAnswers.lean", "w").write(
    ANSWERS
    + emit("cwicacontroller/msgs.go", ["State", "ChannelState", "Ownership_for_String"], "GoController", "`cwicacontroller`", controller, True) + "\n"
    + emit("cwicaowner/msgs.go", ["ContractState", "IcaContractState"], "GoOwner", "`cwicaowner`", owner, True) + "\n"
    + emit("callbackcounter/msgs.go", ["CallbackCounter"], "GoCounter", "`callbackcounter`", (), True)
    + "\nend Ica\n")
