"""Writes lean/Verif/Interface/CSignatures.lean from the C and CUDA sources (read as text)."""
import re

D = '/repo/src/deepwave/'
OUT = '/verif/lean/Verif/Interface/CSignatures.lean'
KIND = {'DW_DTYPE const': 'real', 'int64_t const': 'i64', 'int64_t': 'i64',
        'size_t const': 'size', 'size_t': 'size', 'bool const': 'bool', 'bool': 'bool',
        'cudaStream_t': 'ptr', 'cudaStream_t const': 'ptr'}


def param(p):
    p = ' '.join(p.split())
    name = re.search(r'(\w+)$', p)[1]
    ty = p[:-len(name)].strip()
    kind = 'ptr' if '*' in ty else KIND[ty]
    return f'(.{kind}, "{name}")'


def segments(body):
    """[(condition or None, [params])], following the #if blocks of the source."""
    segs, cond, txt, opn = [], None, '', None
    def flush():
        nonlocal txt
        ps = [param(p) for p in txt.split(',') if p.strip()]
        if ps:
            segs.append((cond, ps))
        txt = ''
    for line in body.split('\n'):
        l = re.sub(r'//.*', '', line).strip()
        m = re.match(r'#if DW_NDIM (>=|==|<|>|<=) (\d)$', l)
        if m:
            assert cond is None, l
            flush()
            cond = 'nd %s %s' % ({'>=': '≥', '<=': '≤', '==': '='}.get(m[1], m[1]), m[2])
            opn = cond
        elif l == '#else':
            flush()
            cond = '¬' + f'({opn})'
        elif l == '#endif':
            flush()
            cond = None
        elif l.startswith('#'):
            raise Exception(l)
        else:
            txt += ' ' + l
    flush()
    return segs


def emit(f, lean, out):
    src = open(D + f).read()
    for m in re.finditer(r'int FUNC\((\w+)\)\(', src):
        i, depth = m.end(), 1
        j = i
        while depth:
            depth += {'(': 1, ')': -1}.get(src[j], 0)
            j += 1
        first, last = src[:m.start()].count('\n') + 1, src[:j].count('\n') + 1
        out.append(f'/-- {f} lines {first}-{last}: parameters of `{m[1]}`. -/')
        out.append(f'def {lean}.{m[1]} (nd : ℕ) : Sig :=')
        parts = []
        for cond, ps in segments(src[i:j - 1]):
            lst, cur = '[', ''
            for k, p in enumerate(ps):
                t = p + (', ' if k + 1 < len(ps) else ']')
                if len(cur) + len(t) > 88:
                    lst += cur.rstrip() + '\n     '
                    cur = ''
                cur += t
            lst += cur
            parts.append(f'  sec (nd {cond[3:]}) {lst}' if cond and cond.startswith('nd')
                         else f'  sec ({cond}) {lst}' if cond else '  ' + lst)
        out.append('  List.flatten [')
        out.append(',\n'.join(parts) + ']')
        out.append('')


out = ['import Verif.Interface.Kinds', '', '/-!',
       '# Parameter lists of the compiled entry points',
       '',
       'Transcribed mechanically by `tools/csig.py` from the C and CUDA sources: kind and name of',
       'each parameter, one `sec` per `#if DW_NDIM` block.  Pointer types, `void *` and',
       '`cudaStream_t` have kind `ptr`; `DW_DTYPE` has kind `real`.',
       '-/', '', 'namespace Dw.Interface', '']
for p, l in (('scalar', 'scalar'), ('scalar_born', 'born'), ('acoustic', 'acoustic'),
             ('elastic', 'elastic')):
    emit(p + '.c', 'Cpu.' + l, out)
    emit(p + '.cu', 'Cuda.' + l, out)
out.append('end Dw.Interface')
open(OUT, 'w').write('\n'.join(out) + '\n')
