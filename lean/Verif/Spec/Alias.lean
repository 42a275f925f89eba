import Verif.Model.Alias
/-! Builders as values: what the bytes of the builders would be if each had a buffer of its own. -/
namespace Verif.Spec.Alias
open Verif.Go Verif.Model.Alias

/-- A builder and its bytes. -/
structure Book where
  bytes : Bytes
  failed : Bool

/-- The builders, and the callbacks that run. -/
structure Library where
  books : List Book
  stack : List Frame

/-- `u` written over the four bytes at `n` -/
def patched (bs : Bytes) (n : Nat) (u : Bytes) : Bytes := bs.take n ++ u ++ bs.drop (n + 4)

/-- What each action of the client means. -/
def Library.act (l : Library) : Act → Library
  | .call i enc =>
    match l.books[i]? with
    | some ⟨bs, false⟩ => { l with books := l.books.set i ⟨bs ++ enc, false⟩ }
    | _ => l
  | .fail i =>
    match l.books[i]? with
    | some ⟨bs, false⟩ => { l with books := l.books.set i ⟨bs, true⟩ }
    | _ => l
  | .enter i m enc =>
    match l.books[i]? with
    | some ⟨bs, false⟩ => ⟨l.books.set i ⟨if m then bs else bs ++ enc, false⟩ ++ [⟨bs ++ enc, false⟩],
        ⟨i, l.books.length, if m then some bs.length else none⟩ :: l.stack⟩
    | _ => l
  | .leave enc =>
    match l.stack with
    | [] => l
    | ⟨i, c, start⟩ :: fs =>
      match l.books[c]? with
      | none => l
      | some ⟨bs, failed⟩ =>
        ⟨l.books.set i ⟨match start with | none => bs ++ enc | some n => patched bs n enc, failed⟩, fs⟩
  | .reset i => { l with books := l.books.set i ⟨[], false⟩ }

def Library.acts (l : Library) (as : List Act) : Library := as.foldl Library.act l

def emptyLibrary : Library := ⟨[⟨[], false⟩], []⟩

/-- The first builder can always be used, and those of the callbacks that run. -/
def Library.open (l : Library) (i : Nat) : Prop := i = 0 ∨ ∃ f ∈ l.stack, f.child = i

def Library.allows (l : Library) : Act → Prop
  | .call i _ | .fail i | .enter i _ _ => l.open i
  | _ => True

/-- Client code that does not use a builder after its callback returned. -/
def Proper (l : Library) : List Act → Prop
  | [] => True
  | a :: as => l.allows a ∧ Proper (l.act a) as

/-- What is sent, if no callback runs and no call failed. -/
def Library.sends (l : Library) : Option Bytes :=
  match l.stack, l.books with
  | [], ⟨bs, false⟩ :: _ => some bs
  | _, _ => none

end Verif.Spec.Alias
