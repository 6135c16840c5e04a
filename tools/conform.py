#!/usr/bin/env python3
"""Compare the parser and the evaluator of lean/Verif/Python with CPython on random programs.

None of the programs is taken from melodia, and melodia is never run. For each program the two sides must agree on the result or
on the exception, unless the Lean side refuses the program (no parse, not supported) or has no result for it (stuck).

usage: conform.py seed count [kind ...]    kinds: expr stmt sort rx closure class flat layout strings text
"""
import fractions, io, math, os, random, re, signal, subprocess, sys

LEAN = os.path.join(os.path.dirname(os.path.dirname(os.path.abspath(__file__))), 'lean')

RUN = r"""import Verif.Python.Parser
import Verif.Python.Supported
import Verif.Lemmas.CPySort
import Verif.Props.Text
open Melodia Melodia.Python

def ratText (q : ℚ) : String := s!"{q.num}/{q.den}"

def theWorld : World where
  sort := cpySort
  floatText := exFloatText
  digits := ⟨fun _ => none⟩
  powTwo := fun _ => .error .outOfFuel
  gauss := fun _ _ _ => .nan
  sqrt := fun _ => .nan

def pf : PyFloat → String
  | .fin q => ratText q
  | .posInf => "inf"
  | .negInf => "-inf"
  | .nan => "nan"

partial def show' (P : Program) (h : Heap) : Val → String
  | .none => "None"
  | .bool b => if b then "True" else "False"
  | .int i => toString i
  | .float x => "F" ++ pf x
  | .str s => "S[" ++ " ".intercalate (s.map fun c => toString c.toNat) ++ "]"
  | .bytes b => "B[" ++ " ".intercalate (b.map fun c => toString c.toNat) ++ "]"
  | .tuple l => "T(" ++ ",".intercalate (l.map (show' P h)) ++ ")"
  | .constList l => "L(" ++ ",".intercalate (l.map (show' P h)) ++ ")"
  | .constDict l => "D(" ++ ",".intercalate (l.map fun p => show' P h p.1 ++ ":" ++ show' P h p.2) ++ ")"
  | .obj c fs => c ++ "(" ++ ",".intercalate ((fs.map fun p => (p.1, show' P h p.2)).mergeSort (fun p q => decide (p.1 ≤ q.1)) |>.map fun p => p.1 ++ "=" ++ p.2) ++ ")"
  | .ref a => match h.objs[a]? with
    | some (.list l) => "L(" ++ ",".intercalate (l.map (show' P h)) ++ ")"
    | some (.dict l _) => "D(" ++ ",".intercalate (l.map fun p => show' P h p.1 ++ ":" ++ show' P h p.2) ++ ")"
    | some (.inst c fs) => c ++ "(" ++ ",".intercalate ((fs.map fun p => (p.1, show' P h p.2)).mergeSort (fun p q => decide (p.1 ≤ q.1)) |>.map fun p => p.1 ++ "=" ++ p.2) ++ ")"
    | some (.file d p) => "FILE" ++ toString p ++ show' P h (.bytes d)
    | _ => "?"
  | .range a b => s!"R({a},{b})"
  | .reMatch g => "M(" ++ ",".intercalate (g.map fun p => p.1 ++ "=" ++ show' P h p.2) ++ ")"
  | _ => "OTHER"

def errName : PyErr → String
  | .valueError => "ValueError"
  | .typeError => "TypeError"
  | .overflowError => "OverflowError"
  | .assertionError => "AssertionError"
  | .zeroDivisionError => "ZeroDivisionError"
  | .indexError => "IndexError"
  | .attributeError => "AttributeError"
  | .recursionError => "RecursionError"
  | _ => "OTHERERROR"

/-- The text files. -/
def files (P : Program) (h : Heap) : String := String.join (h.objs.map fun o => match o with
  | .text n s => " FILE " ++ show' P h (.str n) ++ show' P h (.str s)
  | _ => "")

def runOne (lines : List String) : String :=
  match parseModule "m" false lines with
  | none => "NOPARSE"
  | some (d, cs) =>
    let P : Program := ⟨[d], cs⟩
    if !P.supported then "UNSUPPORTED" else match P.func "m" "main" with
    | none => "NOMAIN"
    | some f => match callFun P theWorld f [] [] ⟨[], 0⟩ with
      | none => "STUCK"
      | some (.ok v h) => "ok " ++ show' P h v ++ files P h
      | some (.err e _) => "err " ++ errName e

def main (args : List String) : IO Unit := do
  let text ← IO.FS.readFile args.head!
  for p in text.splitOn "\n#----\n" do
    IO.println (runOne (p.splitOn "\n"))
"""


class G:
    def __init__(self, r):
        self.r = r; self.vars = []; self.chaos = 0.12; self.uid = 0
    def p(self, x): return self.r.random() < x
    def ch(self, *l): return self.r.choice(l)
    def fresh(self, pre='v'):
        self.uid += 1
        return f'{pre}{self.uid}'
    def pick(self, t):
        l = [x for x, u in self.vars if u == t]
        return self.r.choice(l) if l else None
    def expr(self, t, d):
        if self.p(self.chaos) and d > 0:
            t = self.ch('int', 'float', 'str', 'bytes', 'bool', 'tuple', 'list', 'dict', 'none')
        v = self.pick(t)
        if v and self.p(0.35): return v
        return getattr(self, 'e_' + t)(d)
    def any(self, d):
        return self.expr(self.ch('int', 'int', 'int', 'float', 'str', 'bytes', 'bool', 'tuple', 'list', 'dict', 'none'), d)
    def par(self, s): return f'({s})'
    def e_none(self, d): return 'None'
    def e_int(self, d):
        r = self.r
        if d <= 0:
            return str(self.ch(0, 1, 2, 3, 5, 7, 12, 127, 128, 255, 256, 480, 65535, r.randrange(10**6), r.randrange(10**20)))
        k = r.randrange(19)
        a = lambda: self.expr('int', d-1)
        if k < 6: return f'{self.opnd("int", d-1)} {self.ch("+","-","*","//","%","&","|")} {self.opnd("int", d-1)}'
        if k == 6: return f'{self.opnd("int", d-1)} {self.ch("<<",">>")} {r.randrange(12)}'
        if k == 7: return f'-{self.opnd("int", d-1)}'
        if k == 8: return f'+{self.opnd("int", d-1)}'
        if k == 9: return f'len({self.expr(self.ch("str","bytes","list","tuple","dict"), d-1)})'
        if k == 10: return f'abs({self.expr(self.ch("int","int","float"), d-1)})'
        if k == 11: return f'{self.ch("max","min")}({a()}, {a()})'
        if k == 12: return f'int({self.expr(self.ch("int","float","bool"), d-1)})'
        if k == 13: return f'{a()} if {self.expr("bool", d-1)} else {a()}'
        if k == 14: return f'{self.opnd(self.ch("tuple","list"), d-1)}[{r.randrange(-3,4)}]'
        if k == 15: return f'int.from_bytes({self.expr("bytes", d-1)}, "big")'
        if k == 16: return f'({a()}).bit_length()'
        if k == 17: return f'sum({self.expr(self.ch("list","tuple"), d-1)})'
        return f'{self.opnd("int", 0)} ** {r.randrange(5)}'
    def opnd(self, t, d):
        s = self.expr(t, d)
        return s if self.p(0.15) and t != 'none' else f'({s})'
    def e_float(self, d):
        r = self.r
        if d <= 0: return self.ch('0.5', '1.5', '0.1', '0.75', '2.0', '1e3', '3.25', '100.0', '0.0', str(r.random()), str(round(r.random()*100, 2)))
        k = r.randrange(8)
        if k < 3: return f'{self.opnd("float", d-1)} {self.ch("*","/")} {self.opnd(self.ch("float","int"), d-1)}'
        if k == 3: return f'{self.opnd("int", d-1)} / {self.opnd("int", d-1)}'
        if k == 4: return f'-{self.opnd("float", d-1)}'
        if k == 5: return f'{self.ch("max","min")}({self.expr("float", d-1)}, {self.expr("float", d-1)})'
        if k == 6: return f'abs({self.expr("float", d-1)})'
        return f'{self.opnd("int", d-1)} * {self.opnd("float", d-1)}'
    def e_str(self, d):
        r = self.r
        lit = self.ch("''", "'a'", "'abc'", '"x y"', "'C#4'", "'it\\'s'", "'\\n\\t\\\\'", "'\\x41'", "'0'", "'12'", "'/'", '"""q"q"""')
        if d <= 0: return lit
        k = r.randrange(8)
        if k == 0: return f'{self.opnd("str", d-1)} + {self.opnd("str", d-1)}'
        if k == 1: return f'str({self.expr(self.ch("int","str"), d-1)})'
        if k == 2: return f'{lit}.join([{self.expr("str", d-1)}, {self.expr("str", d-1)}])'
        if k == 3: return f"f'<{{{self.fexpr('int')}}}{{{self.fexpr('int')}:d}}>'"
        if k == 4: return f"f'{{{self.fexpr('str')}}} {{{{}}}} {{{self.fexpr('str')}:s}}'"
        if k == 5: return f"f'{{{self.ch('0.5','0.1','1.0005','2.5','0.0125','12.3456','99.9995','0.0005','0.0015', str(r.random()), str(r.random()*1000))}:.3f}}'"
        if k == 6: return f"({lit} {self.ch(chr(39)+'zz'+chr(39))})"
        return f'{self.expr("str", d-1)} if {self.expr("bool", d-1)} else {self.expr("str", d-1)}'
    def fexpr(self, t):
        v = self.pick(t)
        if v: return v
        return {'int': self.ch('1 + 2', '-7', '12 // 5', '(3 * 4)', '0'), 'str': self.ch('"ab"', '"x" + "y"')}[t]
    def e_bytes(self, d):
        r = self.r
        lit = self.ch("b''", "b'ab'", "b'\\x00\\xff'", "b'MThd'", "b'\\x90<@'")
        if d <= 0: return lit
        k = r.randrange(6)
        if k == 0: return f'{self.opnd("bytes", d-1)} + {self.opnd("bytes", d-1)}'
        if k == 1: return f'({self.expr("int", d-1)}).to_bytes({r.randrange(5)}, "{self.ch("big","little")}")'
        if k == 2: return f'{self.opnd("bytes", d-1)}[{self.ch("", str(r.randrange(-4,5)))}:{self.ch("", str(r.randrange(-4,5)))}]'
        if k == 3: return f"b''.join([{self.expr('bytes', d-1)}, {self.expr('bytes', d-1)}])"
        return lit
    def e_bool(self, d):
        if d <= 0: return self.ch('True', 'False')
        k = self.r.randrange(12)
        t = self.ch('int', 'int', 'float', 'str', 'bytes', 'tuple', 'none', 'bool')
        if k < 3: return f'{self.opnd(t, d-1)} {self.ch("==","!=","<","<=",">",">=")} {self.opnd(t, d-1)}'
        if k == 3: return f'{self.opnd("int", d-1)} {self.ch("<","<=")} {self.opnd(self.ch("int","float"), d-1)} {self.ch("<","<=","==")} {self.opnd("int", d-1)}'
        if k == 4: return f'not {self.opnd(t, d-1)}'
        if k == 5: return f'{self.opnd("bool", d-1)} {self.ch("and","or")} {self.opnd("bool", d-1)}'
        if k == 6: return f'{self.opnd("int", d-1)} {self.ch("in","not in")} {self.opnd(self.ch("list","tuple","dict","bytes"), d-1)}'
        if k == 7: return f'{self.opnd(t, d-1)} {self.ch("is","is not")} None'
        if k == 8: return f'isinstance({self.any(d-1)}, {self.ch("int","str","(int, str)")})'
        if k == 9: return f'isinstance({self.any(d-1)}, Iterable)'
        if k == 10: return f'{self.any(d-1)} == {self.any(d-1)}' if False else f'({self.any(d-1)}) == ({self.any(d-1)})'
        return f'{self.opnd("bool", d-1)} if {self.opnd(t, d-1)} else {self.opnd("bool", d-1)}'
    def e_tuple(self, d):
        k = self.r.randrange(4)
        if d <= 0 or k == 0: return self.ch('()', '(1,)', '(3, 4)', '(1, 2, 3)')
        return '(' + ', '.join(self.expr('int', d-1) for _ in range(self.r.randrange(2, 4))) + ')'
    def e_list(self, d):
        r = self.r
        k = r.randrange(6)
        if d <= 0 or k == 0: return self.ch('[]', '[1]', '[3, 4]', '[1, 2, 3]')
        if k == 1:
            x = self.fresh('c'); self.vars.append((x, 'int')); e = self.expr('int', d-1); self.vars.pop()
            return f'[{e} for {x} in {self.ch(self.expr("list", d-1), self.expr("tuple", d-1), f"range({r.randrange(-2,3)}, {r.randrange(-2,6)})")}]'
        if k == 2:
            x = self.fresh('c'); y = self.fresh('c'); self.vars += [(x, 'int'), (y, 'int')]; e = self.expr('int', d-1); self.vars.pop(); self.vars.pop()
            return f'[{e} for {x}, {y} in {self.ch("zip([1, 2, 3], (4, 5))", "{1: 2, 3: 4}.items()", "[(1, 2), (3, 4)]", "zip(range(0, 3), b"+chr(39)+"ab"+chr(39)+")")}]'
        if k == 3: return f'{self.opnd("list", d-1)} * {r.randrange(-1, 4)}'
        return '[' + ', '.join(self.any(d-1) if self.p(0.3) else self.expr('int', d-1) for _ in range(r.randrange(0, 4))) + ']'
    def e_dict(self, d):
        r = self.r
        k = r.randrange(4)
        if d <= 0 or k == 0: return self.ch('{}', '{1: 2}', "{'a': 1, 'b': 2}", '{1: 3, True: 4}', '{1.0: 5, 1: 6}')
        if k == 1:
            x = self.fresh('c'); self.vars.append((x, 'int')); e = self.expr('int', d-1); self.vars.pop()
            return f'{{{x}: {e} for {x} in {self.ch(self.expr("tuple", 0), "range(0, 3)")}}}'
        return '{' + ', '.join(f'{self.expr(self.ch("int","str","bytes"), 0)}: {self.expr("int", d-1)}' for _ in range(r.randrange(0, 4))) + '}'
    # statements
    def block(self, d, ind, loop):
        out = []
        saved = list(self.vars)
        for _ in range(self.r.randrange(1, 4)): out += self.stmt(d, ind, loop)
        self.vars = saved
        return out
    def stmt(self, d, ind, loop):
        r = self.r; s = '    ' * ind
        k = r.randrange(22)
        t = self.ch('int', 'int', 'int', 'float', 'str', 'bytes', 'bool', 'tuple', 'list', 'dict')
        if k < 5:
            x = self.pick(t) if self.p(0.5) else None
            e = self.expr(t, 3)
            if not x:
                x = self.fresh()
                self.vars.append((x, t))
            return [f'{s}{x} = {e}']
        if k == 5:
            x = self.pick('int')
            return [f'{s}{x} {self.ch("+=","-=","*=","//=","|=")} {self.expr("int", 2)}'] if x else [f'{s}pass']
        if k == 6:
            x = self.pick('list')
            return [f'{s}{x}.append({self.any(2)})'] if x else [f'{s}pass']
        if k == 7:
            x = self.pick('dict')
            return [f'{s}{x}[{self.expr(self.ch("int","str"), 1)}] = {self.any(2)}'] if x else [f'{s}pass']
        if k == 8:
            x = self.pick('list')
            return [f'{s}{x}[{r.randrange(0, 3)}] = {self.any(2)}'] if x else [f'{s}pass']
        if k == 9:
            a, b = self.fresh(), self.fresh()
            e = self.ch(f'({self.expr("int", 2)}, {self.expr("int", 2)})', self.expr('tuple', 1), self.expr('list', 1), self.expr('int', 1))
            self.vars += [(a, 'int'), (b, 'int')]
            return [f'{s}{a}, {b} = {e}']
        if k == 10 and d > 0:
            out = [f'{s}if {self.expr(self.ch("bool","int","list"), 2)}:'] + self.block(d-1, ind+1, loop)
            if self.p(0.4): out += [f'{s}elif {self.expr("bool", 2)}:'] + self.block(d-1, ind+1, loop)
            if self.p(0.6): out += [f'{s}else:'] + self.block(d-1, ind+1, loop)
            return out
        if k in (11, 12) and d > 0:
            x = self.fresh('i'); it = self.ch(self.expr('list', 1), self.expr('tuple', 1), f'range(0, {r.randrange(6)})', self.expr('bytes', 1))
            self.vars.append((x, 'int'))
            out = [f'{s}for {x} in {it}:'] + self.block(d-1, ind+1, True)
            self.vars.pop()
            return out
        if k == 13 and d > 0:
            x = self.fresh('n'); self.vars.append((x, 'counter'))
            return [f'{s}{x} = {r.randrange(5)}', f'{s}while {x} > 0:', f'{s}    {x} -= 1'] + self.block(d-1, ind+1, True)
        if k == 14 and loop: return [f'{s}if {self.expr("bool", 2)}:', f'{s}    {self.ch("break","continue")}']
        if k == 15 and self.p(0.3): return [f'{s}if {self.expr("bool", 2)}:', f'{s}    return {self.any(2)}']
        if k == 16 and self.p(0.3): return [f'{s}assert {self.expr("bool", 2)}']
        if k == 17 and self.p(0.3): return [f'{s}if {self.expr("bool", 2)}:', f'{s}    raise {self.ch("ValueError","TypeError")}("x")']
        if k == 18:
            x = self.fresh('h')
            self.vars.append((x, 'list'))
            return [f'{s}{x} = []'] + [f'{s}heappush({x}, {self.expr("int", 1)})' for _ in range(r.randrange(7))]
        if k == 19:
            x = self.pick('list')
            return [f'{s}{x}.sort()'] if x else [f'{s}pass']
        if k == 20:
            f = self.fresh('f'); y = self.fresh('p')
            shared = self.pick('int')
            old = list(self.vars)
            self.vars = [(a, b) for a, b in self.vars if b in ('int',)] + [(y, 'int')]
            body = []
            if shared and self.p(0.5):
                body += [f'{s}    nonlocal {shared}', f'{s}    {shared} += {y}']
            body += [f'{s}    return {self.expr("int", 2)}']
            self.vars = old
            z = self.fresh(); self.vars.append((z, 'int'))
            return [f'{s}def {f}({y}=1):'] + body + [f'{s}{z} = {f}({self.expr("int", 1)}) + {f}()']
        if k == 21:
            x = self.fresh('b'); z = self.fresh(); w = self.fresh()
            self.vars += [(z, 'bytes'), (w, 'int')]
            return [f'{s}with BytesIO({self.ch("", self.expr("bytes", 1))}) as {x}:', f'{s}    {w} = {x}.write({self.expr("bytes", 1)})', f'{s}    {x}.write({self.expr("bytes", 1)})',
                    f'{s}    {z} = {x}.read({r.randrange(4)}) + {x}.getbuffer().tobytes()']
        return [f'{s}pass']
    def program(self):
        out = ['from io import BytesIO', 'from heapq import heappush', 'from typing import Iterable', '']
        if self.p(0.3): out += self.classes()
        n = self.r.randrange(0, 2)
        funs = []
        for _ in range(n):
            f = self.fresh('fn'); a, b = self.fresh('a'), self.fresh('a')
            self.vars = [(a, 'int'), (b, 'int')]
            body = self.block(1, 1, False)
            out += [f'def {f}({a}, {b}={self.r.randrange(9)}):'] + body + [f'    return {self.any(2)}', '']
            funs.append((f, a, b))
        self.vars = []
        out += ['def main():']
        for _ in range(self.r.randrange(1, 8)): out += self.stmt(2, 1, False)
        for f, a, b in funs:
            x = self.fresh()
            out += [f'    {x} = ' + self.ch(f'{f}(1)', f'{f}(2, 3)', f'{f}(4, {b}=5)', f'{f}({b}=1, {a}=2)', f'{f}(*(1, 2))', f'{f}()', f'{f}(1, {a}=3)')]
            self.vars.append((x, self.ch('int', 'any')))
        out += ['    return (' + ''.join(x + ', ' for x, t in self.vars if t != 'counter') + self.any(2) + ',)']
        return '\n'.join(out)
    def classes(self):
        return []

def canon(v, depth=0):
    if v is None or v is True or v is False: return str(v)
    if type(v) is int: return str(v)
    if type(v) is float:
        if math.isnan(v): return 'Fnan'
        if math.isinf(v): return 'Finf' if v > 0 else 'F-inf'
        a, b = v.as_integer_ratio()
        return f'F{a}/{b}'
    if type(v) is str: return 'S[' + ' '.join(str(ord(c)) for c in v) + ']'
    if type(v) is bytes: return 'B[' + ' '.join(str(c) for c in v) + ']'
    if type(v) is tuple: return 'T(' + ','.join(map(canon, v)) + ')'
    if type(v) is list: return 'L(' + ','.join(map(canon, v)) + ')'
    if type(v) is dict: return 'D(' + ','.join(canon(a) + ':' + canon(b) for a, b in v.items()) + ')'
    if type(v) is range: return f'R({v.start},{v.stop})'
    if isinstance(v, io.BytesIO): return f'FILE{v.tell()}' + canon(v.getvalue())
    if hasattr(v, 'groupdict'): return 'M(' + ','.join(f'{a}={canon(b)}' for a, b in v.groupdict().items() if b is not None) + ')'
    if type(v).__module__ == 'm' and (hasattr(v, '__dict__') or hasattr(v, '__slots__')):
        names = list(getattr(v, '__dict__', {})) + [a for a in getattr(v, '__slots__', ()) if hasattr(v, a)]
        return type(v).__name__ + '(' + ','.join(f'{a}={canon(getattr(v, a))}' for a in sorted(names)) + ')'
    return 'OTHER'

class Slow(Exception): pass
def alarm(*a): raise Slow()
signal.signal(signal.SIGALRM, alarm)

def cpython(src):
    written = []
    class File(io.StringIO):
        def __init__(self, name, mode):
            super().__init__()
            if type(name) is not str or mode != 'w': raise NotImplementedError
            written.append((name, self))
        def close(self): pass
    g = {'__name__': 'm', 'open': File}
    import warnings
    warnings.simplefilter('ignore')
    try: code = compile(src, 'm', 'exec')
    except SyntaxError as e: return 'NOPARSE'
    signal.setitimer(signal.ITIMER_REAL, 2)
    try:
        exec(code, g)
        v = g['main']()
        return 'ok ' + canon(v) + ''.join(' FILE ' + canon(n) + canon(f.getvalue()) for n, f in written)
    except Slow: return 'SLOW'
    except Exception as e: return 'err ' + type(e).__name__
    finally: signal.setitimer(signal.ITIMER_REAL, 0)

def cls(g, name):
    r = g.r
    ops = r.sample(['__eq__', '__lt__', '__le__', '__gt__', '__ge__'], r.randrange(0, 6))
    out = [f'class {name}:']
    if g.p(0.3): out += ['    """doc"""']
    if g.p(0.3): out += ["    __slots__ = " + g.ch("('_x', '_y')", "('_y', '_x', '_z')", "('_x', '_y')", "('_x',)")]
    out += ['    def __init__(self, x, y=3):', f'        self._x = {g.ch("x", "x + 1", "(x, y)")}', '        self._y = y']
    if g.p(0.6): out += ['    @property', '    def x(self):', '        return self._x']
    for o in ops:
        s = {'__eq__': '==', '__lt__': '<', '__le__': '<=', '__gt__': '>', '__ge__': '>='}[o]
        out += [f'    def {o}(self, other):']
        if g.p(0.4): out += [f'        if not isinstance(other, {name}):', f'            {g.ch("return False", "raise TypeError(1)")}']
        out += [f'        return self._y {s if o == "__eq__" else g.ch(s, "<", "==")} other._y']
    if g.p(0.5): out += ['    def __len__(self):', f'        return {g.ch("self._y", "0", "2")}']
    if g.p(0.5): out += ['    def __iter__(self):', f'        return iter({g.ch("[self._y, 1]", "(1, 2)", "[]")})']
    if g.p(0.5): out += ['    def __str__(self):', f'        return {g.ch("f" + chr(39) + "<{self._y}>" + chr(39), chr(34) + "o" + chr(34))}']
    if g.p(0.5): out += ['    def __add__(self, other):', f'        return {name}(self._x, self._y + {g.ch("other", "other._y")})']
    if g.p(0.5): out += ['    def __abs__(self):', f'        return abs(self._y)']
    if g.p(0.4): out += ['    @staticmethod', '    def st(a):', f'        return a * 2']
    if g.p(0.4): out += ['    @classmethod', '    def cl(cls, a):', f'        return cls(a, a)']
    if g.p(0.4): out += ['    def up(self, a):', f'        self._y = self._y + a', '        return self']
    if g.p(0.3): out += ['    def g(self, n):', '        for i in range(0, n):', f'            yield {g.ch("i", "(i, self._y)", "self")}']
    return out + ['']

def classprog(g):
    r = g.r
    out = ['from io import BytesIO', 'from heapq import heappush', 'from typing import Iterable', 'from operator import itemgetter', 'from collections import defaultdict', 'from dataclasses import dataclass', '']
    names = ['A', 'B'][:r.randrange(1, 3)]
    for n in names: out += cls(g, n)
    if g.p(0.3):
        out += ['@dataclass(frozen=True)', 'class D:', '    p: int', '    q: int', '']; names.append('D')
    if g.p(0.2):
        out += ['class E(A):', '    pass', '']
    out += ['def main():', '    o = []']
    objs = []
    for i in range(r.randrange(1, 4)):
        c = r.choice(names)
        out += [f'    o{i} = {c}({r.randrange(4)}, {r.randrange(4)})']; objs.append(f'o{i}')
    O = lambda: r.choice(objs)
    V = lambda: g.ch(O(), O(), O(), '1', 'None', '"a"', '(1, 2)', '[1]', '2.5', 'b"x"')
    for _ in range(r.randrange(1, 6)):
        k = r.randrange(20)
        e = [f'{O()} {g.ch("==","!=","<","<=",">",">=")} {V()}', f'{V()} {g.ch("==","!=","<","<=",">",">=")} {O()}',
             f'len({O()})', f'[z for z in {O()}]', f'str({O()})', f"f'{{{O()}}}'", f'{O()} + {V()}', f'abs({O()})', f'{O()}.x', f'{O()}._y', f'{O()}.st(3)',
             f'{O()}.cl(2)', f'{g.ch("A", O())}.st(1)', f'{O()}.up(2)', f'bool' if False else f'not {O()}', f'{V()} in [{O()}, {V()}]', f'({O()}, {V()}) {g.ch("==","<",">=")} ({O()}, {V()})',
             f'isinstance({O()}, {g.ch("A", "Iterable", "int", "(A, int)")})', f'max({O()}, {V()})', f'{V()}.{g.ch("x", "nope", "append", "real", "denominator", "items", "upper", "_y")}'][k]
        out += [f'    o.append({e})']
    if g.p(0.3): out += [f'    l = [{", ".join(V() for _ in range(r.randrange(4)))}]', '    l.sort()', '    o.append(l)']
    if g.p(0.3): out += ['    h = []'] + [f'    heappush(h, {V()})' for _ in range(r.randrange(4))] + ['    o.append(h)']
    if g.p(0.3): out += [f'    for w in {O()}.g({r.randrange(4)}):', f'        if {g.ch("True", "False", "w == 1")}:', '            continue', '        o.append(w)']
    if g.p(0.3): out += ['    d = defaultdict(list)'] + [f'    d[{g.ch("1", "2", "3")}].append({V()})' for _ in range(r.randrange(4))] + ['    for k, v in d.items():', '        o.append((k, v))', '    o.append(sum(len(v) for v in d.values()))']
    out += ['    return o']
    return '\n'.join(out)

def sortprog(g):
    r = g.r
    n = r.randrange(0, 60)
    key = r.random() < 0.4
    if key:
        l = [(r.randrange(6), r.randrange(6)) for _ in range(n)]
        return f'from operator import itemgetter\ndef main():\n    l = {l}\n    l.sort(key=itemgetter({r.randrange(2)}))\n    return l'
    mode = r.randrange(4)
    l = [r.randrange(8) for _ in range(n)]
    body = ['self.a < o.a', '(self.a * 7 + o.a * 3) % 5 < 2', 'self.a <= o.a', '(self.a - o.a) % 3 == 1'][mode]
    return f'class A:\n    def __init__(self, a, b):\n        self.a = a\n        self.b = b\n    def __lt__(self, o):\n        return {body}\ndef main():\n    l = [A(a, b) for a, b in zip({l}, range(0, {n}))]\n    l.sort()\n    return l'

def rxprog(g):
    r = g.r
    def atom(d):
        k = r.randrange(6)
        if k < 2: return r.choice('abC#1-')
        if k == 2: return '[' + ''.join(r.sample('abCdE12', r.randrange(1, 4))) + ']'
        if k == 3: return r'\d'
        if k == 4 and d > 0: return f'(?P<g{r.randrange(1000)}>{seq(d-1)})'
        return r.choice('xyz')
    def seq(d): return ''.join(atom(d) + r.choice(['', '', '*', '+', '?']) for _ in range(r.randrange(1, 4)))
    pat = seq(2)
    import re
    try: names = list(re.compile(pat).groupindex)
    except re.error: return 'def main():\n    return 1'
    s = ''.join(r.choice('abC#1-xyz2dE') for _ in range(r.randrange(0, 8)))
    return f"import re\ndef main():\n    m = re.compile(r'{pat}').match('{s}')\n    if m is None:\n        return None\n    return (" + ''.join(f"m.group('{n}'), " for n in names) + '1)'

def closureprog(g):
    r = g.r
    out = ['def main(a=1):' if g.p(0.5) else 'def main():\n    a = 1', '    b = 2']
    body = []
    if g.p(0.5): body += ['        nonlocal a', f'        a = a + {g.ch("x", "b", "1")}']
    body += [f'        return {g.ch("a", "b", "a + b + x")}']
    out += ['    def f(x=5):'] + body
    for _ in range(r.randrange(1, 5)):
        out += [g.ch('    b = 7', '    a = a + 10', '    c = f()', '    c = f(2)', '    a = f(x=1)', '    b += f()')]
    return '\n'.join(out + ['    return (a, b)'])

def flat(r, n):
    s = ''
    for i in range(n):
        s += r.choice(['', '', '', '', '-', '+', 'not ', '- -'])
        s += r.choice(['0', '1', '2', '3', '5', 'True', 'False', 'a', 'b', '(1, 2)[0]', 'len("ab")', '(a)', '(b + 1)', '0x1F', '0b101', '1_000', '07' if r.random() < 0.02 else '7', "f'{a}'.join(['x']) == 'x'"])
        if i < n - 1:
            s += r.choice([' ', ' ', '  ', '']) if False else ' '
            s += r.choice(['+', '-', '*', '//', '%', '**', '<<', '>>', '&', '|', '^' if r.random() < 0.05 else '&', '<', '>', '<=', '>=', '==', '!=', 'and', 'or', 'in (1, 2) and', 'not in (0, 1) or', 'is not None and', 'if b else', 'is None or'])
            s += ' '
    return s

def layout(r):
    out = ['def main():', '    a = 3', '    b = 4', '    o = []']
    for _ in range(r.randrange(1, 6)):
        k = r.randrange(9)
        if k == 0: out += ['    # comment', '', '      # odd comment']
        if k == 1: out += ['    o.append((', '  1,', '# c', '        2', '))']
        if k == 2: out += ['    x = a + \\', '        b', '    o.append(x)']
        if k == 3: out += ['    if a:  # yes', '            o.append(1)', '            o.append(2)', '    else:', '      o.append(3)']
        if k == 4: out += ["    o.append('a' 'b'", "        'c')"]
        if k == 5: out += ["    o.append('''x", "  y''')"]
        if k == 6: out += ["    for i in range(0, 3): o.append(i)"] if r.random() < 0.5 else ["    for i in range(0, 2):", "        if i:", "            o.append(i)", "        o.append('e')"]
        if k == 7: out += ["    a = 1; b = 2"] if r.random() < 0.5 else ["    o.append({'a': 1,", "  'b': [", "1, 2,", "  ],", "})"]
        if k == 8: out += ["    o.append([", "        a", "        for a in (1, 2)", "    ])"]
    if r.random() < 0.1: out += ['   o.append(9)']
    return '\n'.join(out + ['    return o'])

def strings(r):
    esc = ['\\n', '\\t', '\\\\', "\\'", '\\"', '\\x41', '\\0', '\\r', 'a', 'b', '{', '}', ' ', '#', '%', '\\q', '\\N', '\\u0041', 'é']
    body = ''.join(r.choice(esc) for _ in range(r.randrange(0, 6)))
    pre = r.choice(['', '', 'r', 'b', 'f', 'rb', 'R', 'B'])
    q = r.choice(["'", '"', "'''", '"""'])
    return f'def main():\n    return {pre}{q}{body}{q}'

def text(r):
    ch = r.choice
    def plain(n): return ''.join(ch(['a', 'b', ',', ' ', '\\x09', '\\n', '.', 'x', ',', '\\xa0', '\\x1c', '-']) for _ in range(r.randrange(0, n)))
    def bare(n): return ''.join(ch('ab, .x-') for _ in range(r.randrange(0, n)))
    def num(): return ch([str(r.randrange(-3, 12)), '-1', '0', '3', '2', 'True' if r.random() < 0.1 else '1'])
    def template():
        s = ''
        for _ in range(r.randrange(0, 6)):
            k = r.randrange(24)
            s += '{' + ch('abc') + '}' if k < 14 else bare(3) if k < 23 else ch(['{{', '}}', '{', '}', '{}', '{a', '{a.b}', '{d}', '{a!r}', '{a:d}'])
        return s
    def val(d=2):
        k = r.randrange(9)
        if k < 3: return num()
        if k < 6 or d == 0: return "'" + plain(5) + "'"
        if k == 6: return '[' + ', '.join(val(d - 1) for _ in range(r.randrange(3))) + ']'
        if k == 7: return ch(['None', 's'])
        return 'R(' + ', '.join(val(d - 1) for _ in range(2)) + ')'
    out = ['from dataclasses import dataclass', '', '@dataclass(frozen=True)', 'class R:', '    x: str', '    y: object', '']
    out += [f"s = '{plain(9)}'", f't = """{template()}\n{template()}"""', 'l = [' + ', '.join(val(1) for _ in range(r.randrange(4))) + ']', f's2 = s * {num()}']
    if r.random() < 0.2: out += ['if __name__ == ' + ch(["'__main__'", "'m'"]) + ':', '    s3 = 1', 'else:', '    s3 = 2']
    out += ['', 'def main():', '    o = []']
    for _ in range(r.randrange(1, 6)):
        k = r.randrange(12)
        if k == 0: out += ['    o.append(' + ch(['s', 's2', 't', "'" + plain(6) + "'"]) + '.strip())']
        if k == 1: out += [f"    o.append({ch(['s', 's2'])}.split('{ch([',', ',', ' ', 'a', 'x', '', ', '])}'))"]
        if k in (2, 3): out += ['    o.append(' + ch(['t', 't.strip()', "'" + template() + "'"]) + '.format(' + ', '.join(f'{x}={val(ch([0, 0, 0, 1]))}' for x in r.sample('abc', ch([3, 3, 3, 3, 2]))) + '))']
        if k == 4: out += ['    o.append(' + ch(['s', "'ab'", '[1, s]'] * 3 + [num()]) + ' * ' + ch([num()] * 9 + ['s']) + ')']
        if k == 5: out += [f"    for w in {ch(['s', 's2'])}.split(','):", f"        o.append(w.strip(){ch(['', ' + s', ' * 2'])})"]
        if k == 6: out += ['    for i in l:', '        o.append(i)']
        if k == 7: out += [f"    o.append('{plain(3)}'.join(" + ch(['l', "s.split(',')", "s2.split('a')", 'o']) + '))']
        if k == 8: out += ["    o.append(f'{s}{" + ch(['l[0]', 'len(l)', f'abs({num()})', 's2', 'len(t)']) + "}')"]
        if k == 9: out += [f'    o.append(len({ch(["s", "t", "l", "s2"])}))']
        if k == 10: out += ['    o.append(' + ch(['l[0].x', 'l[-1]', 'l[0].y', 's3', 'l', 'l']) + ')']
        if k == 11: out += [f'    r = R({val(1)}, {val(1)})', '    o.append(r.' + ch(['x', 'y', 'x', 'z']) + ')']
    if r.random() < 0.4:
        out += [f"    with open({ch(['s', repr('n'), 's2'])}, 'w') as f:"]
        for _ in range(r.randrange(1, 3)): out += [f"        f.write({ch(['s', 't.strip()', 's + s2', 'o', num(), repr('') , 's.strip() * 2', 's', 's2'])})"]
    else: out += ['    return ' + ch(['o', 'o', '(o, l)', 's2'])]
    return '\n'.join(out)

def exprprog(g):
    return f'from io import BytesIO\nfrom typing import Iterable\ndef main():\n    return {g.any(3)}'

def lean_run(progs, d):
    path = os.path.join(d, 'programs.txt')
    open(path, 'w').write('\n#----\n'.join(progs))
    out = subprocess.run(['lake', 'env', 'lean', '-M', '6000', '--run', os.path.join(d, 'Run.lean'), path], cwd=LEAN, capture_output=True, text=True)
    if 'Run.lean:' in out.stdout + out.stderr:  # the model is not built: nothing was compared
        sys.exit(out.stdout[:500] + out.stderr[:500])
    lines = out.stdout.split('\n')[:-1]
    return lines if len(lines) == len(progs) else None

def compare(progs, d):
    keep = [(p, a) for p, a in ((p, cpython(p)) for p in progs) if a != 'SLOW' and len(a) < 20000]
    stats = {'not compared': len(progs) - len(keep)}; bad = []
    for i in range(0, len(keep), 100):
        part = keep[i:i+100]
        lean = lean_run([p for p, _ in part], d)
        if lean is None:  # a program that needs too much memory
            lean = [(lean_run([p], d) or ['CRASH'])[0] for p, _ in part]
        for (p, a), b in zip(part, lean):
            if b in ('STUCK', 'NOPARSE', 'UNSUPPORTED', 'CRASH'): key = b if a != 'NOPARSE' else 'both NOPARSE'
            elif a == b: key = 'same ' + a.split()[0]
            else: key = 'DIFFERENT'; bad.append((p, a, b))
            if key == 'CRASH': bad.append((p, a, b))
            stats[key] = stats.get(key, 0) + 1
    return stats, bad

def main():
    seed, count = int(sys.argv[1]), int(sys.argv[2])
    kinds = {
        'expr': lambda r: exprprog(G(r)), 'stmt': lambda r: G(r).program(), 'sort': lambda r: sortprog(G(r)),
        'rx': lambda r: rxprog(G(r)), 'closure': lambda r: closureprog(G(r)), 'class': lambda r: classprog(G(r)),
        'flat': lambda r: 'def main():\n    a = 2\n    b = 3\n    return ' + flat(r, r.randrange(2, 6)),
        'layout': layout, 'strings': strings, 'text': text}
    d = '/tmp/conform'
    os.makedirs(d, exist_ok=True)
    open(os.path.join(d, 'Run.lean'), 'w').write(RUN)
    for k in sys.argv[3:] or kinds:
        r = random.Random(f'{seed} {k}')
        stats, bad = compare([kinds[k](r) for _ in range(count)], d)
        print(k, stats, flush=True)
        for p, a, b in sorted(bad, key=lambda x: len(x[0]))[:3]:
            print('=====', a[:300], '|', b[:300]); print(p)

if __name__ == '__main__':
    main()
