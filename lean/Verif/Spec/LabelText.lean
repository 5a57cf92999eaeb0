/-!
# Reading labels

Independent of the model.
-/
namespace Verif.Pds.Spec

/-- The statements of a header: lines that end with `\r\n`, each with a name, spaces, an equals sign, a space and a value; empty lines are left
out.  The first argument is at least the length of the text. -/
def statements : Nat → List Char → List (List Char × List Char)
  | 0, _ => []
  | _ + 1, [] => []
  | n + 1, s =>
    let l := s.takeWhile (· != '\r')
    let rest := (s.dropWhile (· != '\r')).drop 2
    if l = [] then statements n rest
    else ((l.takeWhile (· != '=')).filter (· != ' '), (l.dropWhile (· != '=')).drop 2) :: statements n rest

/-- Without spaces and line ends. -/
def squeeze (s : List Char) : List Char := s.filter fun c => c != ' ' && c != '\r' && c != '\n'

/-- The number of quotation marks. -/
def quotes (s : List Char) : Nat := s.count '"'

/-- The texts separated by commas. -/
def commas : List (List Char) → List Char
  | [] => []
  | [x] => x
  | x :: xs => x ++ ',' :: commas xs

end Verif.Pds.Spec
