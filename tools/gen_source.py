#!/usr/bin/env python3
"""Writes the token sequences of source files of /repo into lean/Verif/Source/*.lean.

usage: gen_source.py            write
       gen_source.py --check    compare with what is there

Comments (also doc comments, except in the files of the derive macros), inner attributes `#![..]` and whitespace are dropped. `<` and `>` are always single tokens, as
they are inside types."""
import re, sys, os
REPO = '/repo'
OUT = os.path.join(os.path.dirname(os.path.abspath(__file__)), '..', 'lean', 'Verif', 'Source')
KW = ['as', 'const', 'crate', 'else', 'fn', 'for', 'if', 'impl', 'in', 'let', 'match', 'mod', 'mut', 'pub',
      'self', 'Self', 'struct', 'trait', 'type', 'unsafe', 'use', 'where', 'while']
def kwname(k): return '.kSelfTy' if k == 'Self' else '.k' + k[0].upper() + k[1:]
OPS = [('::', 'colon2'), ('->', 'arrow'), ('=>', 'fatArrow'), ('==', 'eqEq'), ('!=', 'ne'), ('||', 'orOr'),
       ('&&', 'andAnd'), ('+=', 'plusEq'), ('..=', 'dot2eq'), ('..', 'dot2'),
       ('<', 'lt'), ('>', 'gt'), (':', 'colon'), (',', 'comma'), (';', 'semi'), ('+', 'plus'),
       ('-', 'minus'), ('*', 'star'), ('/', 'slash'), ('%', 'percent'), ('.', 'dot'), ('=', 'eq'),
       ('&', 'amp'), ('!', 'bang'), ('?', 'question'), ('#', 'hash'), ('$', 'dollar'), ('|', 'bar'),
       ('(', 'lparen'), (')', 'rparen'), ('[', 'lbracket'), (']', 'rbracket'), ('{', 'lbrace'), ('}', 'rbrace')]
def lex(text, docs=False):
    """[(line, lean token)]; with `docs`, a doc comment `/// ..` becomes `#[doc = ".."]` as it does for macros."""
    out = []; i = 0; line = 1
    def add(t): out.append((line, t))
    while i < len(text):
        c = text[i]
        if c == '\n': line += 1; i += 1; continue
        if c.isspace(): i += 1; continue
        if docs and text.startswith('///', i):
            j = text.find('\n', i)
            for t in ['.op .hash', '.op .lbracket', '.id "doc"', '.op .eq', '.str ' + lean_str(text[i+3:j]), '.op .rbracket']: add(t)
            i = j; continue
        if text.startswith('//', i):
            j = text.find('\n', i); i = len(text) if j < 0 else j; continue
        if text.startswith('/*', i):
            depth = 1; j = i + 2
            while depth:
                if text.startswith('/*', j): depth += 1; j += 2
                elif text.startswith('*/', j): depth -= 1; j += 2
                else: j += 1
            line += text.count('\n', i, j); i = j; continue
        m = re.match(r'r(#*)"', text[i:])
        if m:
            end = '"' + m.group(1); a = i + len(m.group(0)); b = text.index(end, a)
            add('.str ' + lean_str(text[a:b])); line += text.count('\n', i, b); i = b + len(end); continue
        if c == '"':
            j = i + 1; s = ''
            while text[j] != '"':
                if text[j] == '\\':
                    s += {'n': '\n', 't': '\t', '\\': '\\', '"': '"', '0': '\0', 'r': '\r'}[text[j+1]]; j += 2
                else: s += text[j]; j += 1
            add('.str ' + lean_str(s)); line += text.count('\n', i, j); i = j + 1; continue
        m = re.match(r"'(\\.|[^\\'])'", text[i:])
        if m:
            ch = {'\\t': '\t', '\\n': '\n', '\\\\': '\\', "\\'": "'"}.get(m.group(1), m.group(1))
            add('.chr ' + lean_chr(ch)); i += len(m.group(0)); continue
        m = re.match(r"'([A-Za-z_]\w*)", text[i:])
        if m: add('.lifetime "%s"' % m.group(1)); i += len(m.group(0)); continue
        m = re.match(r'[0-9][0-9_]*(\.[0-9][0-9_]*)?([a-z]\w*)?', text[i:])
        if m:
            if m.group(1) or (m.group(2) and m.group(2)[0] == 'f'): add('.float "%s"' % m.group(0))
            else: add('.num %d "%s"' % (int(re.match(r'[0-9_]+', m.group(0)).group(0).replace('_', '')), m.group(2) or ''))
            i += len(m.group(0)); continue
        m = re.match(r'(r#)?[A-Za-z_]\w*', text[i:])
        if m:
            w = m.group(0)
            add('.kw ' + kwname(w) if w in KW else '.id "%s"' % w); i += len(w); continue
        for o, n in OPS:
            if text.startswith(o, i): add('.op .' + n); i += len(o); break
        else: raise SystemExit('cannot lex %r' % text[i:i+20])
    return out
def lean_str(s):
    return '"' + s.replace('\\', '\\\\').replace('"', '\\"').replace('\n', '\\n').replace('\t', '\\t') + '"'
def lean_chr(c):
    return {'\t': "'\\t'", '\n': "'\\n'", "'": "'\\''", '\\': "'\\\\'"}.get(c, "'%s'" % c)
# module, [(definition, file, whether doc comments are kept)]
MODULES = {
  'Internal': [('internal', 'src/internal.rs', None)],
  'Bool': [('bool', 'src/bool.rs', None)],
  'Glsl': [('glsl', 'src/glsl.rs', None)],
  'Std140': [('std140Sizer', 'src/std140/sizer.rs', None), ('std140Writer', 'src/std140/writer.rs', None),
             ('std140Traits', 'src/std140/traits.rs', None),
             ('std140DynamicUniform', 'src/std140/dynamic_uniform.rs', None)],
  'Derive': [('deriveLib', 'crevice-derive/src/lib.rs', 'docs'), ('deriveLayout', 'crevice-derive/src/layout.rs', 'docs'),
             ('deriveGlsl', 'crevice-derive/src/glsl.rs', 'docs')],
  'Tables': [('std140Primitives', 'src/std140/primitives.rs', None), ('std430Primitives', 'src/std430/primitives.rs', None),
             ('util', 'src/util.rs', None), ('impMint', 'src/imp/imp_mint.rs', None),
             ('impCgmath', 'src/imp/imp_cgmath.rs', None), ('impGlam', 'src/imp/imp_glam.rs', None),
             ('impNalgebra', 'src/imp/imp_nalgebra.rs', None)],
  'Modules': [('libRoot', 'src/lib.rs', None), ('std140Root', 'src/std140.rs', None), ('std430Root', 'src/std430.rs', None),
              ('impRoot', 'src/imp.rs', None)],
  'Std430': [('std430Sizer', 'src/std430/sizer.rs', None), ('std430Writer', 'src/std430/writer.rs', None),
             ('std430Traits', 'src/std430/traits.rs', None)],
}
def drop_inner(toks):
    """Without inner attributes `#![..]`."""
    out = []; i = 0
    while i < len(toks):
        if [t for _, t in toks[i:i+3]] == ['.op .hash', '.op .bang', '.op .lbracket']:
            depth = 0; i += 2
            while True:
                if toks[i][1] == '.op .lbracket': depth += 1
                if toks[i][1] == '.op .rbracket': depth -= 1
                i += 1
                if depth == 0: break
        else: out.append(toks[i]); i += 1
    return out
def render(defs):
    o = ['import Verif.Spec.RustCode', '/-',
         'Token sequences of source files of crevice, written by `tools/gen_source.py`. Each line of a list is',
         'one line of the file; comments and inner attributes `#![..]` are left out.', '-/', 'namespace RustCode.Source', 'open Tok Kw Op', '']
    for name, f, docs in defs:
        toks = drop_inner(lex(open(os.path.join(REPO, f)).read(), docs))
        last = toks[-1][0]
        o.append('/-- `%s:%d-%d`. -/' % (f, toks[0][0], last))
        o.append('def %s : List Tok := [' % name)
        lines = {}
        for ln, t in toks: lines.setdefault(ln, []).append(t)
        ks = sorted(lines)
        for ln in ks:
            row = '  '
            for i, t in enumerate(lines[ln]):
                t += ']' if ln == ks[-1] and i == len(lines[ln]) - 1 else ','
                if len(row) + len(t) > 106: o.append(row.rstrip()); row = '    '
                row += t + ' '
            o.append(row.rstrip())
        o.append('')
    o.append('end RustCode.Source'); o.append('')
    return '\n'.join(o)
if __name__ == '__main__':
    bad = 0
    for mod, defs in MODULES.items():
        p = os.path.join(OUT, mod + '.lean'); s = render(defs)
        if '--check' in sys.argv:
            if not os.path.exists(p) or open(p).read() != s: print('differs:', mod); bad = 1
        else: open(p, 'w').write(s)
    if '--check' in sys.argv and not bad: print('Source modules agree with', REPO)
    sys.exit(bad)
