#!/usr/bin/env python3
"""Write the text of melodia's source files as Lean lists of lines (lean/Verif/Source/*Text.lean).

Usage: embed.py /repo lean/Verif/Source
"""
import sys

FILES = [('src/melodia/core/signature.py', 'signatureText'), ('src/melodia/core/tone.py', 'toneText'),
         ('src/melodia/core/note.py', 'noteText'), ('src/melodia/core/track.py', 'trackText'),
         ('src/melodia/processing/track.py', 'processingText'), ('src/melodia/io/midi.py', 'midiText'),
         ('src/melodia/music/chord.py', 'chordText'), ('src/melodia/core/__init__.py', 'coreText'),
         ('src/melodia/io/__init__.py', 'ioPackageText'), ('src/melodia/music/__init__.py', 'musicPackageText'),
         ('src/melodia/processing/__init__.py', 'processingPackageText'), ('src/melodia/__init__.py', 'melodiaPackageText'),
         ('scripts/generate_chords.py', 'generateChordsText')]


def string(s):
    assert all(32 <= ord(c) < 127 for c in s), s
    return '"' + s.replace('\\', '\\\\').replace('"', '\\"') + '"'


def main():
    root, target_dir = sys.argv[1:]
    for path, title in FILES:
        text = open(f'{root}/{path}', newline='').read()
        assert text.endswith('\n')
        lines = text[:-1].split('\n')
        out = ['/-', f'The text of {path}, written by tools/embed.py.', '-/', '', 'set_option autoImplicit false', '',
               'namespace Melodia.Source', '', f'/-- The lines of {path}. -/', f'def {title} : List String := [']
        out += ['  ' + string(x) + (',' if i + 1 < len(lines) else ']') for i, x in enumerate(lines)]
        out += ['', 'end Melodia.Source']
        open(f'{target_dir}/{title[0].upper() + title[1:]}.lean', 'w').write('\n'.join(out) + '\n')


main()
