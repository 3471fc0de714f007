#!/usr/bin/env python3
"""Write lean/Verif/Model/TestlibData.lean: the texts of the classes in /repo/tests/testlib/{Monomial,Chebyshev}.hh."""
import re, os
HERE = os.path.dirname(os.path.abspath(__file__))
def classes(f):
    s = open(f'/repo/tests/testlib/{f}.hh').read()
    out = {}
    for m in re.finditer(r'class (\w+) : public PSimpleBase< ?double, ?double>\s*\{\s*double eval\( const double &var\) const\s*\{\s*return ([^;]*);\s*\}\s*public:\s*std::string csrc\(\) const\s*\{\s*return "([^"]*)";\s*\}\s*std::string sym\(\) const\s*\{\s*return "([^"]*)";\s*\}\s*std::string latex\(\) const\s*\{\s*return "([^"]*)";', s):
        n, e, c, y, l = m.groups()
        assert n not in out
        a = s[:m.start()].count('\n') + 1
        b = s[:m.end()].count('\n') + 1
        out[n] = (a, b, e, c, y, l)
    return out
def cases(f):
    """the switch of basis_function: term -> (name, f, grad, hess)"""
    s = open(f'/repo/tests/testlib/{f}.hh').read()
    out = []
    for m in re.finditer(r'case (\d+):\s*name = "(\w+)";\s*simplef = (\w+)\(\);\s*grad_simplef\.push_back\( psf\( (\w+)\(\) \) \);\s*hess_simplef\[0\]\.push_back\( psf\( (\w+)\(\) \) \);\s*break;', s):
        line = s[:m.start()].count('\n') + 1
        out.append((int(m[1]), m[2], m[3], m[4], m[5], line))
    assert [o[0] for o in out] == list(range(30))
    return out
def vclasses(f):
    s = open(f'/repo/tests/testlib/{f}.hh').read()
    out = {}
    for m in re.finditer(r'class (\w+) : public PSimpleBase< VarContainer, double>\s*\{\s*double eval\( const VarContainer &var\) const\s*\{\s*return ([^;]*);\s*\}\s*public:\s*\w+\(\)\s*\{\s*this->_name = "(\w+)";\s*\}\s*std::string csrc\(\) const\s*\{\s*return "([^"]*)";\s*\}\s*std::string sym\(\) const\s*\{\s*return "([^"]*)";\s*\}\s*std::string latex\(\) const\s*\{\s*return "([^"]*)";', s):
        n, e, nm, c, y, l = m.groups()
        a = s[:m.start()].count('\n') + 1
        b = s[:m.end()].count('\n') + 1
        out[n] = (a, b, e, nm, c, y, l)
    return out
q = lambda t: 'chars!"' + t.replace('\\', '\\\\').replace('"', '\\"') + '"'
o = ['import Verif.Model.TestlibText', '', '/-!',
     '# The texts of the functions in tests/testlib/{Monomial,Chebyshev,Quadratic,MyFunc,MyPieceWiseFunc}.hh', '',
     'Generated by tools/gen_testlib.py from the C++ source, verbatim: the expression each `eval` returns, and the strings `csrc`, `sym` and',
     '`latex` return. The classes of a basis set do not set their names.', '-/', '', 'namespace Verif.Testlib', '']
for f in ['Monomial', 'Chebyshev']:
    cl = classes(f)
    assert len(cl) == 90
    for n, (a, b, e, c, y, l) in cl.items():
        o.append(f'/-- {f}.hh:{a}-{b}, class `{n}`. -/')
        o.append(f'def {n} : ClassText := ⟨"", {q(e)}, {q(c)}, {q(y)}, {q(l)}⟩')
    o.append('')
    cs = cases(f)
    o.append(f'/-- {f}.hh:{cs[0][5]}-{cs[-1][5]+5}, the `switch` of `basis_function`: name, function, gradient, Hessian. -/')
    o.append(f'def {f.lower()}Terms : List TermText := [')
    o.append(',\n'.join(f'  ⟨"{n}", {a}, {b}, {c}⟩' for _, n, a, b, c, _ in cs) + ']')
    o.append('')
def unescape(t): return t.replace('\\\\', '\\')
def pclasses():
    s = open('/repo/tests/testlib/MyPieceWiseFunc.hh').read()
    out = []
    for m in re.finditer(r'class (\w+) : public PSimpleBase< VarContainer, (?:double|bool)>\s*\{\s*(?:double|bool) eval\( const VarContainer &var\) const\s*\{\s*return ([^;]*);\s*\}\s*public:\s*\w+\(\)\s*\{\s*this->_name = "(\w+)";\s*\}\s*std::string csrc\(\) const\s*\{\s*return "([^"]*)";\s*\}\s*std::string sym\(\) const\s*\{\s*return "([^"]*)";\s*\}\s*std::string latex\(\) const\s*\{\s*return "([^"]*)";', s):
        n, e, nm, c, y, l = m.groups()
        out.append((n, s[:m.start()].count('\n') + 1, s[:m.end()].count('\n') + 1, e, nm, c, y, l))
    return out
for f, k in [('Quadratic', 3), ('MyFunc', 7)]:
    cl = vclasses(f)
    assert len(cl) == k
    for n, (a, b, e, nm, c, y, l) in cl.items():
        o.append(f'/-- {f}.hh:{a}-{b}, class `{n}`. -/')
        o.append(f'def {n} : ClassText := ⟨"{nm}", {q(e)}, {q(c)}, {q(y)}, {q(l)}⟩')
    o.append('')
pc = pclasses()
assert len(pc) == 26
for n, a, b, e, nm, c, y, l in pc:
    o.append(f'/-- MyPieceWiseFunc.hh:{a}-{b}, class `{n}`. -/')
    o.append(f'def {n} : ClassText := ⟨"{nm}", {q(e)}, {q(unescape(c))}, {q(unescape(y))}, {q(unescape(l))}⟩')
o.append('')
o.append('end Verif.Testlib')
open(os.path.join(HERE, '../lean/Verif/Model/TestlibData.lean'), 'w').write('\n'.join(o) + '\n')
