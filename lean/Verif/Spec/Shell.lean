import Verif.Spec.LwMain

/-!
# Specification: what a POSIX shell makes of a command line

Only the part of the shell language without quotes, expansions, redirections and the like (POSIX.1, Shell Command Language, 2.3 Token Recognition, 2.9.1 Simple Commands, 2.9.3 Lists):
words separated by blanks, commands separated by semicolons.
-/

namespace Verif.Spec.Sh
open Verif.Spec

/-- A character that stands for itself everywhere in a word. -/
def Plain (c : Char) : Prop := c.isAlphanum = true ∨ c ∈ ("/._-+,:@%=".toList)

instance (c : Char) : Decidable (Plain c) := by unfold Plain; infer_instance

/-- A text that is one word of a command. -/
def OneWord (t : Text) : Prop := ∀ c ∈ t, Plain c

/-- A text of plain words and blanks. -/
def Words (t : Text) : Prop := ∀ c ∈ t, Plain c ∨ c = ' '

/-- The words of a simple command: what is between blanks. `cur` is what has been read of the current word. -/
def wordsFrom (cur : Text) : Text → List Text
  | [] => if cur = [] then [] else [cur]
  | c :: t => if c = ' ' then (if cur = [] then wordsFrom [] t else cur :: wordsFrom [] t) else wordsFrom (cur ++ [c]) t

def wordsOf (t : Text) : List Text := wordsFrom [] t

/-- The texts between semicolons. -/
def partsFrom (cur : Text) : Text → List Text
  | [] => [cur]
  | c :: t => if c = ';' then cur :: partsFrom [] t else partsFrom (cur ++ [c]) t

def partsOf (t : Text) : List Text := partsFrom [] t

/-- Words with a meaning of their own at the beginning of a command. -/
def reserved : List Text := ["if", "then", "else", "elif", "fi", "do", "done", "case", "esac", "while", "until", "for", "in", "function", "select", "time", "coproc"].map
  String.toList

/-- A simple command: it has a first word, which is neither reserved nor an assignment. -/
def IsCommand (ws : List Text) : Prop := ∃ w ∈ ws.head?, w ∉ reserved ∧ '=' ∉ w

instance (ws : List Text) : Decidable (IsCommand ws) := by unfold IsCommand; infer_instance

/-- The shell executes these commands, each given by its name and its arguments, one after the other. (A line of plain characters, blanks and semicolons; this says nothing about other lines.) -/
def Executes (line : Text) (cmds : List (List Text)) : Prop :=
  (∀ c ∈ line, Plain c ∨ c = ' ' ∨ c = ';') ∧ cmds = (partsOf line).map wordsOf ∧ ∀ ws ∈ cmds, IsCommand ws

end Verif.Spec.Sh
