import Verif.Spec.Latex

/-!
# How LaTeX formulas are read

The grammar of formulas once more, with what each phrase is: a formula is a list of items, and a
script belongs to the item just before it.
-/

namespace Verif.Spec

/-- The items of a formula. -/
inductive Item where
  /-- a character or a command for one -/
  | sym (t : Tok)
  /-- nothing; the base of a script that has none -/
  | none
  /-- a formula in braces -/
  | group (l : List Item)
  /-- a command with its arguments -/
  | app (w : Str) (args : List (List Item))
  /-- a root with an index -/
  | root (index radicand : List Item)
  /-- a formula in red -/
  | red (l : List Item)
  /-- a text -/
  | text (w : Str) (l : List Item)
  /-- a formula between delimiters -/
  | fence (l r : Tok) (body : List Item)
  /-- a matrix -/
  | matrix (name : Str) (rows : List (List (List Item)))
  /-- something with a superscript -/
  | sup (base : Item) (e : List Item)
  /-- something with a subscript -/
  | sub (base : Item) (e : List Item)
  /-- something with a prime -/
  | prime (base : Item)

/-- It has a superscript or a prime. -/
def Item.hasSup : Item → Bool
  | .sup _ _ => true
  | .prime _ => true
  | .sub x _ => x.hasSup
  | _ => false

/-- It has a subscript. -/
def Item.hasSub : Item → Bool
  | .sub _ _ => true
  | .sup x _ => x.hasSub
  | .prime x => x.hasSub
  | _ => false

/-- The last item. -/
def lastItem : List Item → Item
  | [] => .none
  | [x] => x
  | _ :: y :: l => lastItem (y :: l)

/-- Change the last item. -/
def onLast (f : Item → Item) : List Item → List Item
  | [] => [f .none]
  | [x] => [f x]
  | x :: y :: l => x :: onLast f (y :: l)

/-- The phrases, and what they are. -/
inductive Shape where
  /-- a part of a formula; the items up to its beginning, and up to its end -/
  | run (l l' : List Item)
  /-- something that can get scripts -/
  | nucleus (x : Item)
  /-- a formula in braces -/
  | group (l : List Item)
  /-- formulas in braces -/
  | groups (ls : List (List Item))
  /-- the argument of a text command -/
  | text (l : List Item)
  /-- the body of a matrix -/
  | body (rows : List (List (List Item)))

/-- The grammar. -/
inductive Reads : Shape → List Tok → Prop
  | nil {l} : Reads (.run l l) []
  | atom {l l' i x f} : Reads (.nucleus i) x → Reads (.run (l ++ [i]) l') f →
      Reads (.run l l') (x ++ f)
  | sup {l l' e g f} : (lastItem l).hasSup = false → Reads (.group e) g →
      Reads (.run (onLast (fun x => .sup x e) l) l') f → Reads (.run l l') (.char '^' :: (g ++ f))
  | sub {l l' e g f} : (lastItem l).hasSub = false → Reads (.group e) g →
      Reads (.run (onLast (fun x => .sub x e) l) l') f → Reads (.run l l') (.char '_' :: (g ++ f))
  | prime {l l' f} : (lastItem l).hasSup = false → Reads (.run (onLast .prime l) l') f →
      Reads (.run l l') (.char '\'' :: f)
  | group {l f} : Reads (.run [] l) f → Reads (.group l) (.char '{' :: (f ++ [.char '}']))
  | none : Reads (.groups []) []
  | more {l ls g f} : Reads (.group l) g → Reads (.groups ls) f → Reads (.groups (l :: ls)) (g ++ f)
  | char {c} : ordinary c = true → Reads (.nucleus (.sym (.char c))) [.char c]
  | symb {c} : c ∈ controlSymbols → Reads (.nucleus (.sym (.symb c))) [.symb c]
  | word {w} : w ∈ symbols → Reads (.nucleus (.sym (.word w))) [.word w]
  | braces {l g} : Reads (.group l) g → Reads (.nucleus (.group l)) g
  | command {w n ls f} : (w, n) ∈ commands → ls.length = n → Reads (.groups ls) f →
      Reads (.nucleus (.app w ls)) (.word w :: f)
  | root {l r f g} : Reads (.run [] l) f → .char ']' ∉ f → Reads (.group r) g →
      Reads (.nucleus (.root l r)) (.word c!"sqrt" :: .char '[' :: (f ++ .char ']' :: g))
  | color {l g} : Reads (.group l) g →
      Reads (.nucleus (.red l)) (.word c!"color" :: (named c!"red" ++ g))
  | text {w l f} : w ∈ textMacros → Reads (.text l) f →
      Reads (.nucleus (.text w l)) (.word w :: .char '{' :: (f ++ [.char '}']))
  | fence {a b l f} : delimiter a = true → delimiter b = true → Reads (.run [] l) f →
      Reads (.nucleus (.fence a b l)) (.word c!"left" :: a :: (f ++ [.word c!"right", b]))
  | matrix {name rows f} : name ∈ matrixNames → Reads (.body rows) f →
      Reads (.nucleus (.matrix name rows))
        (.word c!"begin" :: (named name ++ f ++ .word c!"end" :: named name))
  | textEnd : Reads (.text []) []
  | textChar {c l f} : ordinary c = true → Reads (.text l) f →
      Reads (.text (.sym (.char c) :: l)) (.char c :: f)
  | degree {l f} : Reads (.text l) f →
      Reads (.text (.sym (.word c!"textdegree") :: l)) (.word c!"textdegree" :: f)
  | nested {w l l' f f'} : w ∈ textMacros → Reads (.text l) f → Reads (.text l') f' →
      Reads (.text (.text w l :: l')) (.word w :: .char '{' :: (f ++ .char '}' :: f'))
  | cell {l f} : Reads (.run [] l) f → Reads (.body [[l]]) f
  | column {l r rows f f'} : Reads (.run [] l) f → Reads (.body (r :: rows)) f' →
      Reads (.body ((l :: r) :: rows)) (f ++ .char '&' :: f')
  | line {l rows f f'} : Reads (.run [] l) f → Reads (.body rows) f' →
      (∀ t u, f' = t :: u → lineOption t = false) →
      Reads (.body ([l] :: rows)) (f ++ .symb '\\' :: f')

/-- The text is a formula with these items. -/
def ReadsAs (s : Str) (l : List Item) : Prop := Reads (.run [] l) (tokens s)

end Verif.Spec
