#!/usr/bin/env python3
"""Writes lean/Verif/Spec/Unicode.lean: facts of the Unicode character database (Python's
unicodedata), independent of the code base, against which its symbol tables are measured."""
import unicodedata as U, string, re
marks=[(0x301,'acute'),(0x300,'grave'),(0x302,'hat'),(0x303,'tilde'),(0x308,'ddot'),(0x30a,'mathring'),
       (0x306,'breve'),(0x30c,'check'),(0x307,'dot'),(0x304,'bar'),(0x30b,'ddot')]
M=dict(marks)
comp=[];base=[]
for o in range(0x80,0x110000):
    c=chr(o); d=U.normalize('NFD',c)
    if len(d)>=2 and d[0] in string.ascii_letters and all(U.combining(x) for x in d[1:]):
        base.append((o,d[0]))
        if len(d)==2 and ord(d[1]) in M: comp.append((o,d[0],ord(d[1])))
letterlike=[]
for o in range(0x2100,0x2150):
    m=re.fullmatch(r'(DOUBLE-STRUCK|SCRIPT|BLACK-LETTER) CAPITAL ([A-Z])',U.name(chr(o),''))
    if m and U.normalize('NFKC',chr(o))==m.group(2):
        letterlike.append((o,m.group(2),{'DOUBLE-STRUCK':'mathbb','SCRIPT':'mathcal','BLACK-LETTER':'mathfrak'}[m.group(1)]))
frac=[]
for o in range(0x80,0x3000):
    m=re.fullmatch(r'(\d+)⁄(\d+)',U.normalize('NFKC',chr(o)))
    if m and U.name(chr(o)).startswith('VULGAR'): frac.append((o,m.group(1),m.group(2)))
greek=[]
for o in list(range(0x391,0x3AA))+list(range(0x3b1,0x3ca)):
    m=re.fullmatch(r'GREEK (SMALL|CAPITAL) LETTER ([A-Z]+)',U.name(chr(o),''))
    if m:
        n=m.group(2).lower().replace('lamda','lambda'); greek.append((o,n if m.group(1)=='SMALL' else n.capitalize()))
sup=[]
for o in range(0x80,0x3000):
    d=U.decomposition(chr(o)).split()
    if len(d)==2 and d[0] in('<super>','<sub>') and chr(int(d[1],16)) in string.digits:
        sup.append((o,d[0]=='<super>',chr(int(d[1],16))))
circ=[(o,U.normalize('NFKC',chr(o))) for o in range(0x2400,0x3300) if re.fullmatch(r"CIRCLED (DIGIT|NUMBER) .*",U.name(chr(o),"")) and U.normalize("NFKC",chr(o)).isdigit()]
def rows(l,f,per):
    out=[];
    for i in range(0,len(l),per): out.append('   '+', '.join(map(f,l[i:i+per])))
    return ',\n'.join(out).lstrip()
def ch(o): return "'\\u%04x'"%o if U.combining(chr(o)) else "'%s'"%chr(o)
O=[]
O.append('''import Verif.Py

/-!
# Facts about Unicode characters

Generated by tools/gen_unicode.py from the Unicode character database, not from the code base.
-/

namespace Verif.Spec

/-- Combining marks with a LaTeX math accent. -/
def markCommands : List (Char × Str) :=
  ['''+rows(marks,lambda p:'(%s, c!"%s")'%(ch(p[0]),p[1]),4)+''']

set_option maxRecDepth 100000 in
/-- All characters whose canonical decomposition is an ASCII letter and one of these marks. -/
def composed : List (Char × Char × Char) :=
  ['''+rows(comp,lambda p:"('%s', '%s', %s)"%(chr(p[0]),p[1],ch(p[2])),5)+''']

set_option maxRecDepth 100000 in
/-- All characters whose canonical decomposition is an ASCII letter and marks of any kind, with
the letter. -/
def latinBase : List (Char × Char) :=
  ['''+rows(base,lambda p:"('%s', '%s')"%(chr(p[0]),p[1]),9)+''']

/-- Capitals in a special font that are not in the block of mathematical alphanumeric symbols. -/
def letterlike : List (Char × Char × Str) :=
  ['''+rows(letterlike,lambda p:"('%s', '%s', c!\"%s\")"%(chr(p[0]),p[1],p[2]),4)+''']

/-- Fractions: numerator and denominator. -/
def vulgarFractions : List (Char × Str × Str) :=
  ['''+rows(frac,lambda p:"('%s', c!\"%s\", c!\"%s\")"%(chr(p[0]),p[1],p[2]),4)+''']

/-- Superscript (true) and subscript (false) digits. -/
def scriptDigits : List (Char × Bool × Char) :=
  ['''+rows(sup,lambda p:"('%s', %s, '%s')"%(chr(p[0]),str(p[1]).lower(),p[2]),5)+''']

/-- Circled numbers. -/
def circledNumbers : List (Char × Str) :=
  ['''+rows(circ,lambda p:"('%s', c!\"%s\")"%(chr(p[0]),p[1]),7)+''']

/-- Greek letters with their names. -/
def greekNames : List (Char × Str) :=
  ['''+rows(greek,lambda p:"('%s', c!\"%s\")"%(chr(p[0]),p[1]),6)+''']

end Verif.Spec''')
print('\n'.join(O))
