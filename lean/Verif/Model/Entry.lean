import Verif.Model.Contract

/-!
# Entry points

What `#[entry_point]` (cosmwasm-std `do_instantiate`, `do_execute`, `do_query`, `do_migrate`) puts around the functions of the
contract: the message arrives as bytes, is read with `from_json`, and a message that cannot be read is refused before the
contract sees it.
-/
namespace Ica

/-- Read a message, or fail with the error of `from_json` (cosmwasm-std, not in /repo). -/
def readMsg {α : Type} (c : JC α) (bytes : Bytes) : Res α :=
  match c.ofBytes bytes with
  | some m => .ok m
  | none => .err (.std "Error parsing into type")

/-- The entry point `instantiate` (`/repo/src/contract.rs` 13-49). -/
def instantiateEntry (api : Api) (env : Env) (s : Store) (sender : String) (bytes : Bytes) : Res (Store × Response) :=
  (readMsg InstantiateMsg.jc bytes).bind (instantiate api env s sender)
/-- The entry point `execute` (`/repo/src/contract.rs` 51-84). -/
def executeEntry (api : Api) (env : Env) (s : Store) (sender : String) (bytes : Bytes) : Res (Store × Response) :=
  (readMsg ExecuteMsg.jc bytes).bind (execute api env s sender)
/-- The entry point `query` (`/repo/src/contract.rs` 96-105). -/
def queryEntry (s : Store) (bytes : Bytes) : Res Bytes := (readMsg QueryMsg.jc bytes).bind (query s)
/-- The entry point `migrate` (`/repo/src/contract.rs` 107-117). -/
def migrateEntry (s : Store) (bytes : Bytes) : Res (Store × Response) :=
  (readMsg MigrateMsg.jc bytes).bind fun _ => migrate s

end Ica
