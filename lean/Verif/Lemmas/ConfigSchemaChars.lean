import Verif.Lemmas.ConfigSchema
/-! # Lemmas: the paths of the schema as lists of characters, to evaluate which names are reserved -/
namespace SilKit.ConfigText

set_option maxRecDepth 20000

def schemaChars : List (List Char) :=
  [['/', '$', 's', 'c', 'h', 'e', 'm', 'a'],
    ['/', 'C', 'a', 'n', 'C', 'o', 'n', 't', 'r', 'o', 'l', 'l', 'e', 'r', 's'],
    ['/', 'C', 'a', 'n', 'C', 'o', 'n', 't', 'r', 'o', 'l', 'l', 'e', 'r', 's', '/', 'N', 'a', 'm', 'e'],
    ['/', 'C', 'a', 'n', 'C', 'o', 'n', 't', 'r', 'o', 'l', 'l', 'e', 'r', 's', '/', 'N', 'e', 't', 'w', 'o', 'r', 'k'],
    ['/', 'C', 'a', 'n', 'C', 'o', 'n', 't', 'r', 'o', 'l', 'l', 'e', 'r', 's', '/', 'R', 'e', 'p', 'l', 'a', 'y'],
    ['/', 'C', 'a', 'n', 'C', 'o', 'n', 't', 'r', 'o', 'l', 'l', 'e', 'r', 's', '/', 'R', 'e', 'p', 'l', 'a', 'y', '/', 'D', 'i', 'r', 'e', 'c', 't', 'i', 'o', 'n'],
    ['/', 'C', 'a', 'n', 'C', 'o', 'n', 't', 'r', 'o', 'l', 'l', 'e', 'r', 's', '/', 'R', 'e', 'p', 'l', 'a', 'y', '/', 'M', 'd', 'f', 'C', 'h', 'a', 'n', 'n', 'e', 'l'],
    ['/', 'C', 'a', 'n', 'C', 'o', 'n', 't', 'r', 'o', 'l', 'l', 'e', 'r', 's', '/', 'R', 'e', 'p', 'l', 'a', 'y', '/', 'M', 'd', 'f', 'C', 'h', 'a', 'n', 'n', 'e', 'l', '/', 'C', 'h', 'a', 'n', 'n', 'e', 'l', 'N', 'a', 'm', 'e'],
    ['/', 'C', 'a', 'n', 'C', 'o', 'n', 't', 'r', 'o', 'l', 'l', 'e', 'r', 's', '/', 'R', 'e', 'p', 'l', 'a', 'y', '/', 'M', 'd', 'f', 'C', 'h', 'a', 'n', 'n', 'e', 'l', '/', 'C', 'h', 'a', 'n', 'n', 'e', 'l', 'P', 'a', 't', 'h'],
    ['/', 'C', 'a', 'n', 'C', 'o', 'n', 't', 'r', 'o', 'l', 'l', 'e', 'r', 's', '/', 'R', 'e', 'p', 'l', 'a', 'y', '/', 'M', 'd', 'f', 'C', 'h', 'a', 'n', 'n', 'e', 'l', '/', 'C', 'h', 'a', 'n', 'n', 'e', 'l', 'S', 'o', 'u', 'r', 'c', 'e'],
    ['/', 'C', 'a', 'n', 'C', 'o', 'n', 't', 'r', 'o', 'l', 'l', 'e', 'r', 's', '/', 'R', 'e', 'p', 'l', 'a', 'y', '/', 'M', 'd', 'f', 'C', 'h', 'a', 'n', 'n', 'e', 'l', '/', 'G', 'r', 'o', 'u', 'p', 'N', 'a', 'm', 'e'],
    ['/', 'C', 'a', 'n', 'C', 'o', 'n', 't', 'r', 'o', 'l', 'l', 'e', 'r', 's', '/', 'R', 'e', 'p', 'l', 'a', 'y', '/', 'M', 'd', 'f', 'C', 'h', 'a', 'n', 'n', 'e', 'l', '/', 'G', 'r', 'o', 'u', 'p', 'P', 'a', 't', 'h'],
    ['/', 'C', 'a', 'n', 'C', 'o', 'n', 't', 'r', 'o', 'l', 'l', 'e', 'r', 's', '/', 'R', 'e', 'p', 'l', 'a', 'y', '/', 'M', 'd', 'f', 'C', 'h', 'a', 'n', 'n', 'e', 'l', '/', 'G', 'r', 'o', 'u', 'p', 'S', 'o', 'u', 'r', 'c', 'e'],
    ['/', 'C', 'a', 'n', 'C', 'o', 'n', 't', 'r', 'o', 'l', 'l', 'e', 'r', 's', '/', 'R', 'e', 'p', 'l', 'a', 'y', '/', 'U', 's', 'e', 'T', 'r', 'a', 'c', 'e', 'S', 'o', 'u', 'r', 'c', 'e'],
    ['/', 'C', 'a', 'n', 'C', 'o', 'n', 't', 'r', 'o', 'l', 'l', 'e', 'r', 's', '/', 'U', 's', 'e', 'T', 'r', 'a', 'c', 'e', 'S', 'i', 'n', 'k', 's'],
    ['/', 'D', 'a', 't', 'a', 'P', 'u', 'b', 'l', 'i', 's', 'h', 'e', 'r', 's'],
    ['/', 'D', 'a', 't', 'a', 'P', 'u', 'b', 'l', 'i', 's', 'h', 'e', 'r', 's', '/', 'L', 'a', 'b', 'e', 'l', 's'],
    ['/', 'D', 'a', 't', 'a', 'P', 'u', 'b', 'l', 'i', 's', 'h', 'e', 'r', 's', '/', 'L', 'a', 'b', 'e', 'l', 's', '/', 'K', 'e', 'y'],
    ['/', 'D', 'a', 't', 'a', 'P', 'u', 'b', 'l', 'i', 's', 'h', 'e', 'r', 's', '/', 'L', 'a', 'b', 'e', 'l', 's', '/', 'K', 'i', 'n', 'd'],
    ['/', 'D', 'a', 't', 'a', 'P', 'u', 'b', 'l', 'i', 's', 'h', 'e', 'r', 's', '/', 'L', 'a', 'b', 'e', 'l', 's', '/', 'V', 'a', 'l', 'u', 'e'],
    ['/', 'D', 'a', 't', 'a', 'P', 'u', 'b', 'l', 'i', 's', 'h', 'e', 'r', 's', '/', 'N', 'a', 'm', 'e'],
    ['/', 'D', 'a', 't', 'a', 'P', 'u', 'b', 'l', 'i', 's', 'h', 'e', 'r', 's', '/', 'R', 'e', 'p', 'l', 'a', 'y'],
    ['/', 'D', 'a', 't', 'a', 'P', 'u', 'b', 'l', 'i', 's', 'h', 'e', 'r', 's', '/', 'R', 'e', 'p', 'l', 'a', 'y', '/', 'D', 'i', 'r', 'e', 'c', 't', 'i', 'o', 'n'],
    ['/', 'D', 'a', 't', 'a', 'P', 'u', 'b', 'l', 'i', 's', 'h', 'e', 'r', 's', '/', 'R', 'e', 'p', 'l', 'a', 'y', '/', 'M', 'd', 'f', 'C', 'h', 'a', 'n', 'n', 'e', 'l'],
    ['/', 'D', 'a', 't', 'a', 'P', 'u', 'b', 'l', 'i', 's', 'h', 'e', 'r', 's', '/', 'R', 'e', 'p', 'l', 'a', 'y', '/', 'M', 'd', 'f', 'C', 'h', 'a', 'n', 'n', 'e', 'l', '/', 'C', 'h', 'a', 'n', 'n', 'e', 'l', 'N', 'a', 'm', 'e'],
    ['/', 'D', 'a', 't', 'a', 'P', 'u', 'b', 'l', 'i', 's', 'h', 'e', 'r', 's', '/', 'R', 'e', 'p', 'l', 'a', 'y', '/', 'M', 'd', 'f', 'C', 'h', 'a', 'n', 'n', 'e', 'l', '/', 'C', 'h', 'a', 'n', 'n', 'e', 'l', 'P', 'a', 't', 'h'],
    ['/', 'D', 'a', 't', 'a', 'P', 'u', 'b', 'l', 'i', 's', 'h', 'e', 'r', 's', '/', 'R', 'e', 'p', 'l', 'a', 'y', '/', 'M', 'd', 'f', 'C', 'h', 'a', 'n', 'n', 'e', 'l', '/', 'C', 'h', 'a', 'n', 'n', 'e', 'l', 'S', 'o', 'u', 'r', 'c', 'e'],
    ['/', 'D', 'a', 't', 'a', 'P', 'u', 'b', 'l', 'i', 's', 'h', 'e', 'r', 's', '/', 'R', 'e', 'p', 'l', 'a', 'y', '/', 'M', 'd', 'f', 'C', 'h', 'a', 'n', 'n', 'e', 'l', '/', 'G', 'r', 'o', 'u', 'p', 'N', 'a', 'm', 'e'],
    ['/', 'D', 'a', 't', 'a', 'P', 'u', 'b', 'l', 'i', 's', 'h', 'e', 'r', 's', '/', 'R', 'e', 'p', 'l', 'a', 'y', '/', 'M', 'd', 'f', 'C', 'h', 'a', 'n', 'n', 'e', 'l', '/', 'G', 'r', 'o', 'u', 'p', 'P', 'a', 't', 'h'],
    ['/', 'D', 'a', 't', 'a', 'P', 'u', 'b', 'l', 'i', 's', 'h', 'e', 'r', 's', '/', 'R', 'e', 'p', 'l', 'a', 'y', '/', 'M', 'd', 'f', 'C', 'h', 'a', 'n', 'n', 'e', 'l', '/', 'G', 'r', 'o', 'u', 'p', 'S', 'o', 'u', 'r', 'c', 'e'],
    ['/', 'D', 'a', 't', 'a', 'P', 'u', 'b', 'l', 'i', 's', 'h', 'e', 'r', 's', '/', 'R', 'e', 'p', 'l', 'a', 'y', '/', 'U', 's', 'e', 'T', 'r', 'a', 'c', 'e', 'S', 'o', 'u', 'r', 'c', 'e'],
    ['/', 'D', 'a', 't', 'a', 'P', 'u', 'b', 'l', 'i', 's', 'h', 'e', 'r', 's', '/', 'T', 'o', 'p', 'i', 'c'],
    ['/', 'D', 'a', 't', 'a', 'P', 'u', 'b', 'l', 'i', 's', 'h', 'e', 'r', 's', '/', 'H', 'i', 's', 't', 'o', 'r', 'y'],
    ['/', 'D', 'a', 't', 'a', 'P', 'u', 'b', 'l', 'i', 's', 'h', 'e', 'r', 's', '/', 'U', 's', 'e', 'T', 'r', 'a', 'c', 'e', 'S', 'i', 'n', 'k', 's'],
    ['/', 'D', 'a', 't', 'a', 'S', 'u', 'b', 's', 'c', 'r', 'i', 'b', 'e', 'r', 's'],
    ['/', 'D', 'a', 't', 'a', 'S', 'u', 'b', 's', 'c', 'r', 'i', 'b', 'e', 'r', 's', '/', 'L', 'a', 'b', 'e', 'l', 's'],
    ['/', 'D', 'a', 't', 'a', 'S', 'u', 'b', 's', 'c', 'r', 'i', 'b', 'e', 'r', 's', '/', 'L', 'a', 'b', 'e', 'l', 's', '/', 'K', 'e', 'y'],
    ['/', 'D', 'a', 't', 'a', 'S', 'u', 'b', 's', 'c', 'r', 'i', 'b', 'e', 'r', 's', '/', 'L', 'a', 'b', 'e', 'l', 's', '/', 'K', 'i', 'n', 'd'],
    ['/', 'D', 'a', 't', 'a', 'S', 'u', 'b', 's', 'c', 'r', 'i', 'b', 'e', 'r', 's', '/', 'L', 'a', 'b', 'e', 'l', 's', '/', 'V', 'a', 'l', 'u', 'e'],
    ['/', 'D', 'a', 't', 'a', 'S', 'u', 'b', 's', 'c', 'r', 'i', 'b', 'e', 'r', 's', '/', 'N', 'a', 'm', 'e'],
    ['/', 'D', 'a', 't', 'a', 'S', 'u', 'b', 's', 'c', 'r', 'i', 'b', 'e', 'r', 's', '/', 'R', 'e', 'p', 'l', 'a', 'y'],
    ['/', 'D', 'a', 't', 'a', 'S', 'u', 'b', 's', 'c', 'r', 'i', 'b', 'e', 'r', 's', '/', 'R', 'e', 'p', 'l', 'a', 'y', '/', 'D', 'i', 'r', 'e', 'c', 't', 'i', 'o', 'n'],
    ['/', 'D', 'a', 't', 'a', 'S', 'u', 'b', 's', 'c', 'r', 'i', 'b', 'e', 'r', 's', '/', 'R', 'e', 'p', 'l', 'a', 'y', '/', 'M', 'd', 'f', 'C', 'h', 'a', 'n', 'n', 'e', 'l'],
    ['/', 'D', 'a', 't', 'a', 'S', 'u', 'b', 's', 'c', 'r', 'i', 'b', 'e', 'r', 's', '/', 'R', 'e', 'p', 'l', 'a', 'y', '/', 'M', 'd', 'f', 'C', 'h', 'a', 'n', 'n', 'e', 'l', '/', 'C', 'h', 'a', 'n', 'n', 'e', 'l', 'N', 'a', 'm', 'e'],
    ['/', 'D', 'a', 't', 'a', 'S', 'u', 'b', 's', 'c', 'r', 'i', 'b', 'e', 'r', 's', '/', 'R', 'e', 'p', 'l', 'a', 'y', '/', 'M', 'd', 'f', 'C', 'h', 'a', 'n', 'n', 'e', 'l', '/', 'C', 'h', 'a', 'n', 'n', 'e', 'l', 'P', 'a', 't', 'h'],
    ['/', 'D', 'a', 't', 'a', 'S', 'u', 'b', 's', 'c', 'r', 'i', 'b', 'e', 'r', 's', '/', 'R', 'e', 'p', 'l', 'a', 'y', '/', 'M', 'd', 'f', 'C', 'h', 'a', 'n', 'n', 'e', 'l', '/', 'C', 'h', 'a', 'n', 'n', 'e', 'l', 'S', 'o', 'u', 'r', 'c', 'e'],
    ['/', 'D', 'a', 't', 'a', 'S', 'u', 'b', 's', 'c', 'r', 'i', 'b', 'e', 'r', 's', '/', 'R', 'e', 'p', 'l', 'a', 'y', '/', 'M', 'd', 'f', 'C', 'h', 'a', 'n', 'n', 'e', 'l', '/', 'G', 'r', 'o', 'u', 'p', 'N', 'a', 'm', 'e'],
    ['/', 'D', 'a', 't', 'a', 'S', 'u', 'b', 's', 'c', 'r', 'i', 'b', 'e', 'r', 's', '/', 'R', 'e', 'p', 'l', 'a', 'y', '/', 'M', 'd', 'f', 'C', 'h', 'a', 'n', 'n', 'e', 'l', '/', 'G', 'r', 'o', 'u', 'p', 'P', 'a', 't', 'h'],
    ['/', 'D', 'a', 't', 'a', 'S', 'u', 'b', 's', 'c', 'r', 'i', 'b', 'e', 'r', 's', '/', 'R', 'e', 'p', 'l', 'a', 'y', '/', 'M', 'd', 'f', 'C', 'h', 'a', 'n', 'n', 'e', 'l', '/', 'G', 'r', 'o', 'u', 'p', 'S', 'o', 'u', 'r', 'c', 'e'],
    ['/', 'D', 'a', 't', 'a', 'S', 'u', 'b', 's', 'c', 'r', 'i', 'b', 'e', 'r', 's', '/', 'R', 'e', 'p', 'l', 'a', 'y', '/', 'U', 's', 'e', 'T', 'r', 'a', 'c', 'e', 'S', 'o', 'u', 'r', 'c', 'e'],
    ['/', 'D', 'a', 't', 'a', 'S', 'u', 'b', 's', 'c', 'r', 'i', 'b', 'e', 'r', 's', '/', 'T', 'o', 'p', 'i', 'c'],
    ['/', 'D', 'a', 't', 'a', 'S', 'u', 'b', 's', 'c', 'r', 'i', 'b', 'e', 'r', 's', '/', 'U', 's', 'e', 'T', 'r', 'a', 'c', 'e', 'S', 'i', 'n', 'k', 's'],
    ['/', 'D', 'e', 's', 'c', 'r', 'i', 'p', 't', 'i', 'o', 'n'],
    ['/', 'E', 't', 'h', 'e', 'r', 'n', 'e', 't', 'C', 'o', 'n', 't', 'r', 'o', 'l', 'l', 'e', 'r', 's'],
    ['/', 'E', 't', 'h', 'e', 'r', 'n', 'e', 't', 'C', 'o', 'n', 't', 'r', 'o', 'l', 'l', 'e', 'r', 's', '/', 'N', 'a', 'm', 'e'],
    ['/', 'E', 't', 'h', 'e', 'r', 'n', 'e', 't', 'C', 'o', 'n', 't', 'r', 'o', 'l', 'l', 'e', 'r', 's', '/', 'N', 'e', 't', 'w', 'o', 'r', 'k'],
    ['/', 'E', 't', 'h', 'e', 'r', 'n', 'e', 't', 'C', 'o', 'n', 't', 'r', 'o', 'l', 'l', 'e', 'r', 's', '/', 'R', 'e', 'p', 'l', 'a', 'y'],
    ['/', 'E', 't', 'h', 'e', 'r', 'n', 'e', 't', 'C', 'o', 'n', 't', 'r', 'o', 'l', 'l', 'e', 'r', 's', '/', 'R', 'e', 'p', 'l', 'a', 'y', '/', 'D', 'i', 'r', 'e', 'c', 't', 'i', 'o', 'n'],
    ['/', 'E', 't', 'h', 'e', 'r', 'n', 'e', 't', 'C', 'o', 'n', 't', 'r', 'o', 'l', 'l', 'e', 'r', 's', '/', 'R', 'e', 'p', 'l', 'a', 'y', '/', 'M', 'd', 'f', 'C', 'h', 'a', 'n', 'n', 'e', 'l'],
    ['/', 'E', 't', 'h', 'e', 'r', 'n', 'e', 't', 'C', 'o', 'n', 't', 'r', 'o', 'l', 'l', 'e', 'r', 's', '/', 'R', 'e', 'p', 'l', 'a', 'y', '/', 'M', 'd', 'f', 'C', 'h', 'a', 'n', 'n', 'e', 'l', '/', 'C', 'h', 'a', 'n', 'n', 'e', 'l', 'N', 'a', 'm', 'e'],
    ['/', 'E', 't', 'h', 'e', 'r', 'n', 'e', 't', 'C', 'o', 'n', 't', 'r', 'o', 'l', 'l', 'e', 'r', 's', '/', 'R', 'e', 'p', 'l', 'a', 'y', '/', 'M', 'd', 'f', 'C', 'h', 'a', 'n', 'n', 'e', 'l', '/', 'C', 'h', 'a', 'n', 'n', 'e', 'l', 'P', 'a', 't', 'h'],
    ['/', 'E', 't', 'h', 'e', 'r', 'n', 'e', 't', 'C', 'o', 'n', 't', 'r', 'o', 'l', 'l', 'e', 'r', 's', '/', 'R', 'e', 'p', 'l', 'a', 'y', '/', 'M', 'd', 'f', 'C', 'h', 'a', 'n', 'n', 'e', 'l', '/', 'C', 'h', 'a', 'n', 'n', 'e', 'l', 'S', 'o', 'u', 'r', 'c', 'e'],
    ['/', 'E', 't', 'h', 'e', 'r', 'n', 'e', 't', 'C', 'o', 'n', 't', 'r', 'o', 'l', 'l', 'e', 'r', 's', '/', 'R', 'e', 'p', 'l', 'a', 'y', '/', 'M', 'd', 'f', 'C', 'h', 'a', 'n', 'n', 'e', 'l', '/', 'G', 'r', 'o', 'u', 'p', 'N', 'a', 'm', 'e'],
    ['/', 'E', 't', 'h', 'e', 'r', 'n', 'e', 't', 'C', 'o', 'n', 't', 'r', 'o', 'l', 'l', 'e', 'r', 's', '/', 'R', 'e', 'p', 'l', 'a', 'y', '/', 'M', 'd', 'f', 'C', 'h', 'a', 'n', 'n', 'e', 'l', '/', 'G', 'r', 'o', 'u', 'p', 'P', 'a', 't', 'h'],
    ['/', 'E', 't', 'h', 'e', 'r', 'n', 'e', 't', 'C', 'o', 'n', 't', 'r', 'o', 'l', 'l', 'e', 'r', 's', '/', 'R', 'e', 'p', 'l', 'a', 'y', '/', 'M', 'd', 'f', 'C', 'h', 'a', 'n', 'n', 'e', 'l', '/', 'G', 'r', 'o', 'u', 'p', 'S', 'o', 'u', 'r', 'c', 'e'],
    ['/', 'E', 't', 'h', 'e', 'r', 'n', 'e', 't', 'C', 'o', 'n', 't', 'r', 'o', 'l', 'l', 'e', 'r', 's', '/', 'R', 'e', 'p', 'l', 'a', 'y', '/', 'U', 's', 'e', 'T', 'r', 'a', 'c', 'e', 'S', 'o', 'u', 'r', 'c', 'e'],
    ['/', 'E', 't', 'h', 'e', 'r', 'n', 'e', 't', 'C', 'o', 'n', 't', 'r', 'o', 'l', 'l', 'e', 'r', 's', '/', 'U', 's', 'e', 'T', 'r', 'a', 'c', 'e', 'S', 'i', 'n', 'k', 's'],
    ['/', 'E', 'x', 'p', 'e', 'r', 'i', 'm', 'e', 'n', 't', 'a', 'l'],
    ['/', 'E', 'x', 'p', 'e', 'r', 'i', 'm', 'e', 'n', 't', 'a', 'l', '/', 'M', 'e', 't', 'r', 'i', 'c', 's'],
    ['/', 'E', 'x', 'p', 'e', 'r', 'i', 'm', 'e', 'n', 't', 'a', 'l', '/', 'M', 'e', 't', 'r', 'i', 'c', 's', '/', 'C', 'o', 'l', 'l', 'e', 'c', 't', 'F', 'r', 'o', 'm', 'R', 'e', 'm', 'o', 't', 'e'],
    ['/', 'E', 'x', 'p', 'e', 'r', 'i', 'm', 'e', 'n', 't', 'a', 'l', '/', 'M', 'e', 't', 'r', 'i', 'c', 's', '/', 'S', 'i', 'n', 'k', 's'],
    ['/', 'E', 'x', 'p', 'e', 'r', 'i', 'm', 'e', 'n', 't', 'a', 'l', '/', 'M', 'e', 't', 'r', 'i', 'c', 's', '/', 'S', 'i', 'n', 'k', 's', '/', 'N', 'a', 'm', 'e'],
    ['/', 'E', 'x', 'p', 'e', 'r', 'i', 'm', 'e', 'n', 't', 'a', 'l', '/', 'M', 'e', 't', 'r', 'i', 'c', 's', '/', 'S', 'i', 'n', 'k', 's', '/', 'T', 'y', 'p', 'e'],
    ['/', 'E', 'x', 'p', 'e', 'r', 'i', 'm', 'e', 'n', 't', 'a', 'l', '/', 'M', 'e', 't', 'r', 'i', 'c', 's', '/', 'U', 'p', 'd', 'a', 't', 'e', 'I', 'n', 't', 'e', 'r', 'v', 'a', 'l'],
    ['/', 'E', 'x', 'p', 'e', 'r', 'i', 'm', 'e', 'n', 't', 'a', 'l', '/', 'T', 'i', 'm', 'e', 'S', 'y', 'n', 'c', 'h', 'r', 'o', 'n', 'i', 'z', 'a', 't', 'i', 'o', 'n'],
    ['/', 'E', 'x', 'p', 'e', 'r', 'i', 'm', 'e', 'n', 't', 'a', 'l', '/', 'T', 'i', 'm', 'e', 'S', 'y', 'n', 'c', 'h', 'r', 'o', 'n', 'i', 'z', 'a', 't', 'i', 'o', 'n', '/', 'A', 'n', 'i', 'm', 'a', 't', 'i', 'o', 'n', 'F', 'a', 'c', 't', 'o', 'r'],
    ['/', 'E', 'x', 'p', 'e', 'r', 'i', 'm', 'e', 'n', 't', 'a', 'l', '/', 'T', 'i', 'm', 'e', 'S', 'y', 'n', 'c', 'h', 'r', 'o', 'n', 'i', 'z', 'a', 't', 'i', 'o', 'n', '/', 'D', 'y', 'n', 'a', 'm', 'i', 'c', 'S', 'i', 'm', 'u', 'l', 'a', 't', 'i', 'o', 'n', 'S', 't', 'e', 'p'],
    ['/', 'E', 'x', 'p', 'e', 'r', 'i', 'm', 'e', 'n', 't', 'a', 'l', '/', 'T', 'i', 'm', 'e', 'S', 'y', 'n', 'c', 'h', 'r', 'o', 'n', 'i', 'z', 'a', 't', 'i', 'o', 'n', '/', 'E', 'n', 'a', 'b', 'l', 'e', 'M', 'e', 's', 's', 'a', 'g', 'e', 'A', 'g', 'g', 'r', 'e', 'g', 'a', 't', 'i', 'o', 'n'],
    ['/', 'E', 'x', 't', 'e', 'n', 's', 'i', 'o', 'n', 's'],
    ['/', 'E', 'x', 't', 'e', 'n', 's', 'i', 'o', 'n', 's', '/', 'S', 'e', 'a', 'r', 'c', 'h', 'P', 'a', 't', 'h', 'H', 'i', 'n', 't', 's'],
    ['/', 'F', 'l', 'e', 'x', 'r', 'a', 'y', 'C', 'o', 'n', 't', 'r', 'o', 'l', 'l', 'e', 'r', 's'],
    ['/', 'F', 'l', 'e', 'x', 'R', 'a', 'y', 'C', 'o', 'n', 't', 'r', 'o', 'l', 'l', 'e', 'r', 's'],
    ['/', 'F', 'l', 'e', 'x', 'r', 'a', 'y', 'C', 'o', 'n', 't', 'r', 'o', 'l', 'l', 'e', 'r', 's', '/', 'C', 'l', 'u', 's', 't', 'e', 'r', 'P', 'a', 'r', 'a', 'm', 'e', 't', 'e', 'r', 's'],
    ['/', 'F', 'l', 'e', 'x', 'R', 'a', 'y', 'C', 'o', 'n', 't', 'r', 'o', 'l', 'l', 'e', 'r', 's', '/', 'C', 'l', 'u', 's', 't', 'e', 'r', 'P', 'a', 'r', 'a', 'm', 'e', 't', 'e', 'r', 's'],
    ['/', 'F', 'l', 'e', 'x', 'r', 'a', 'y', 'C', 'o', 'n', 't', 'r', 'o', 'l', 'l', 'e', 'r', 's', '/', 'C', 'l', 'u', 's', 't', 'e', 'r', 'P', 'a', 'r', 'a', 'm', 'e', 't', 'e', 'r', 's', '/', 'g', 'C', 'o', 'l', 'd', 's', 't', 'a', 'r', 't', 'A', 't', 't', 'e', 'm', 'p', 't', 's'],
    ['/', 'F', 'l', 'e', 'x', 'R', 'a', 'y', 'C', 'o', 'n', 't', 'r', 'o', 'l', 'l', 'e', 'r', 's', '/', 'C', 'l', 'u', 's', 't', 'e', 'r', 'P', 'a', 'r', 'a', 'm', 'e', 't', 'e', 'r', 's', '/', 'g', 'C', 'o', 'l', 'd', 's', 't', 'a', 'r', 't', 'A', 't', 't', 'e', 'm', 'p', 't', 's'],
    ['/', 'F', 'l', 'e', 'x', 'r', 'a', 'y', 'C', 'o', 'n', 't', 'r', 'o', 'l', 'l', 'e', 'r', 's', '/', 'C', 'l', 'u', 's', 't', 'e', 'r', 'P', 'a', 'r', 'a', 'm', 'e', 't', 'e', 'r', 's', '/', 'g', 'C', 'y', 'c', 'l', 'e', 'C', 'o', 'u', 'n', 't', 'M', 'a', 'x'],
    ['/', 'F', 'l', 'e', 'x', 'R', 'a', 'y', 'C', 'o', 'n', 't', 'r', 'o', 'l', 'l', 'e', 'r', 's', '/', 'C', 'l', 'u', 's', 't', 'e', 'r', 'P', 'a', 'r', 'a', 'm', 'e', 't', 'e', 'r', 's', '/', 'g', 'C', 'y', 'c', 'l', 'e', 'C', 'o', 'u', 'n', 't', 'M', 'a', 'x'],
    ['/', 'F', 'l', 'e', 'x', 'r', 'a', 'y', 'C', 'o', 'n', 't', 'r', 'o', 'l', 'l', 'e', 'r', 's', '/', 'C', 'l', 'u', 's', 't', 'e', 'r', 'P', 'a', 'r', 'a', 'm', 'e', 't', 'e', 'r', 's', '/', 'g', 'd', 'A', 'c', 't', 'i', 'o', 'n', 'P', 'o', 'i', 'n', 't', 'O', 'f', 'f', 's', 'e', 't'],
    ['/', 'F', 'l', 'e', 'x', 'R', 'a', 'y', 'C', 'o', 'n', 't', 'r', 'o', 'l', 'l', 'e', 'r', 's', '/', 'C', 'l', 'u', 's', 't', 'e', 'r', 'P', 'a', 'r', 'a', 'm', 'e', 't', 'e', 'r', 's', '/', 'g', 'd', 'A', 'c', 't', 'i', 'o', 'n', 'P', 'o', 'i', 'n', 't', 'O', 'f', 'f', 's', 'e', 't'],
    ['/', 'F', 'l', 'e', 'x', 'r', 'a', 'y', 'C', 'o', 'n', 't', 'r', 'o', 'l', 'l', 'e', 'r', 's', '/', 'C', 'l', 'u', 's', 't', 'e', 'r', 'P', 'a', 'r', 'a', 'm', 'e', 't', 'e', 'r', 's', '/', 'g', 'd', 'D', 'y', 'n', 'a', 'm', 'i', 'c', 'S', 'l', 'o', 't', 'I', 'd', 'l', 'e', 'P', 'h', 'a', 's', 'e'],
    ['/', 'F', 'l', 'e', 'x', 'R', 'a', 'y', 'C', 'o', 'n', 't', 'r', 'o', 'l', 'l', 'e', 'r', 's', '/', 'C', 'l', 'u', 's', 't', 'e', 'r', 'P', 'a', 'r', 'a', 'm', 'e', 't', 'e', 'r', 's', '/', 'g', 'd', 'D', 'y', 'n', 'a', 'm', 'i', 'c', 'S', 'l', 'o', 't', 'I', 'd', 'l', 'e', 'P', 'h', 'a', 's', 'e'],
    ['/', 'F', 'l', 'e', 'x', 'r', 'a', 'y', 'C', 'o', 'n', 't', 'r', 'o', 'l', 'l', 'e', 'r', 's', '/', 'C', 'l', 'u', 's', 't', 'e', 'r', 'P', 'a', 'r', 'a', 'm', 'e', 't', 'e', 'r', 's', '/', 'g', 'd', 'M', 'i', 'n', 'i', 'S', 'l', 'o', 't'],
    ['/', 'F', 'l', 'e', 'x', 'R', 'a', 'y', 'C', 'o', 'n', 't', 'r', 'o', 'l', 'l', 'e', 'r', 's', '/', 'C', 'l', 'u', 's', 't', 'e', 'r', 'P', 'a', 'r', 'a', 'm', 'e', 't', 'e', 'r', 's', '/', 'g', 'd', 'M', 'i', 'n', 'i', 'S', 'l', 'o', 't'],
    ['/', 'F', 'l', 'e', 'x', 'r', 'a', 'y', 'C', 'o', 'n', 't', 'r', 'o', 'l', 'l', 'e', 'r', 's', '/', 'C', 'l', 'u', 's', 't', 'e', 'r', 'P', 'a', 'r', 'a', 'm', 'e', 't', 'e', 'r', 's', '/', 'g', 'd', 'M', 'i', 'n', 'i', 'S', 'l', 'o', 't', 'A', 'c', 't', 'i', 'o', 'n', 'P', 'o', 'i', 'n', 't', 'O', 'f', 'f', 's', 'e', 't'],
    ['/', 'F', 'l', 'e', 'x', 'R', 'a', 'y', 'C', 'o', 'n', 't', 'r', 'o', 'l', 'l', 'e', 'r', 's', '/', 'C', 'l', 'u', 's', 't', 'e', 'r', 'P', 'a', 'r', 'a', 'm', 'e', 't', 'e', 'r', 's', '/', 'g', 'd', 'M', 'i', 'n', 'i', 'S', 'l', 'o', 't', 'A', 'c', 't', 'i', 'o', 'n', 'P', 'o', 'i', 'n', 't', 'O', 'f', 'f', 's', 'e', 't'],
    ['/', 'F', 'l', 'e', 'x', 'r', 'a', 'y', 'C', 'o', 'n', 't', 'r', 'o', 'l', 'l', 'e', 'r', 's', '/', 'C', 'l', 'u', 's', 't', 'e', 'r', 'P', 'a', 'r', 'a', 'm', 'e', 't', 'e', 'r', 's', '/', 'g', 'd', 'S', 't', 'a', 't', 'i', 'c', 'S', 'l', 'o', 't'],
    ['/', 'F', 'l', 'e', 'x', 'R', 'a', 'y', 'C', 'o', 'n', 't', 'r', 'o', 'l', 'l', 'e', 'r', 's', '/', 'C', 'l', 'u', 's', 't', 'e', 'r', 'P', 'a', 'r', 'a', 'm', 'e', 't', 'e', 'r', 's', '/', 'g', 'd', 'S', 't', 'a', 't', 'i', 'c', 'S', 'l', 'o', 't'],
    ['/', 'F', 'l', 'e', 'x', 'r', 'a', 'y', 'C', 'o', 'n', 't', 'r', 'o', 'l', 'l', 'e', 'r', 's', '/', 'C', 'l', 'u', 's', 't', 'e', 'r', 'P', 'a', 'r', 'a', 'm', 'e', 't', 'e', 'r', 's', '/', 'g', 'd', 'S', 'y', 'm', 'b', 'o', 'l', 'W', 'i', 'n', 'd', 'o', 'w'],
    ['/', 'F', 'l', 'e', 'x', 'R', 'a', 'y', 'C', 'o', 'n', 't', 'r', 'o', 'l', 'l', 'e', 'r', 's', '/', 'C', 'l', 'u', 's', 't', 'e', 'r', 'P', 'a', 'r', 'a', 'm', 'e', 't', 'e', 'r', 's', '/', 'g', 'd', 'S', 'y', 'm', 'b', 'o', 'l', 'W', 'i', 'n', 'd', 'o', 'w'],
    ['/', 'F', 'l', 'e', 'x', 'r', 'a', 'y', 'C', 'o', 'n', 't', 'r', 'o', 'l', 'l', 'e', 'r', 's', '/', 'C', 'l', 'u', 's', 't', 'e', 'r', 'P', 'a', 'r', 'a', 'm', 'e', 't', 'e', 'r', 's', '/', 'g', 'd', 'S', 'y', 'm', 'b', 'o', 'l', 'W', 'i', 'n', 'd', 'o', 'w', 'A', 'c', 't', 'i', 'o', 'n', 'P', 'o', 'i', 'n', 't', 'O', 'f', 'f', 's', 'e', 't'],
    ['/', 'F', 'l', 'e', 'x', 'R', 'a', 'y', 'C', 'o', 'n', 't', 'r', 'o', 'l', 'l', 'e', 'r', 's', '/', 'C', 'l', 'u', 's', 't', 'e', 'r', 'P', 'a', 'r', 'a', 'm', 'e', 't', 'e', 'r', 's', '/', 'g', 'd', 'S', 'y', 'm', 'b', 'o', 'l', 'W', 'i', 'n', 'd', 'o', 'w', 'A', 'c', 't', 'i', 'o', 'n', 'P', 'o', 'i', 'n', 't', 'O', 'f', 'f', 's', 'e', 't'],
    ['/', 'F', 'l', 'e', 'x', 'r', 'a', 'y', 'C', 'o', 'n', 't', 'r', 'o', 'l', 'l', 'e', 'r', 's', '/', 'C', 'l', 'u', 's', 't', 'e', 'r', 'P', 'a', 'r', 'a', 'm', 'e', 't', 'e', 'r', 's', '/', 'g', 'd', 'T', 'S', 'S', 'T', 'r', 'a', 'n', 's', 'm', 'i', 't', 't', 'e', 'r'],
    ['/', 'F', 'l', 'e', 'x', 'R', 'a', 'y', 'C', 'o', 'n', 't', 'r', 'o', 'l', 'l', 'e', 'r', 's', '/', 'C', 'l', 'u', 's', 't', 'e', 'r', 'P', 'a', 'r', 'a', 'm', 'e', 't', 'e', 'r', 's', '/', 'g', 'd', 'T', 'S', 'S', 'T', 'r', 'a', 'n', 's', 'm', 'i', 't', 't', 'e', 'r'],
    ['/', 'F', 'l', 'e', 'x', 'r', 'a', 'y', 'C', 'o', 'n', 't', 'r', 'o', 'l', 'l', 'e', 'r', 's', '/', 'C', 'l', 'u', 's', 't', 'e', 'r', 'P', 'a', 'r', 'a', 'm', 'e', 't', 'e', 'r', 's', '/', 'g', 'd', 'W', 'a', 'k', 'e', 'u', 'p', 'T', 'x', 'A', 'c', 't', 'i', 'v', 'e'],
    ['/', 'F', 'l', 'e', 'x', 'R', 'a', 'y', 'C', 'o', 'n', 't', 'r', 'o', 'l', 'l', 'e', 'r', 's', '/', 'C', 'l', 'u', 's', 't', 'e', 'r', 'P', 'a', 'r', 'a', 'm', 'e', 't', 'e', 'r', 's', '/', 'g', 'd', 'W', 'a', 'k', 'e', 'u', 'p', 'T', 'x', 'A', 'c', 't', 'i', 'v', 'e'],
    ['/', 'F', 'l', 'e', 'x', 'r', 'a', 'y', 'C', 'o', 'n', 't', 'r', 'o', 'l', 'l', 'e', 'r', 's', '/', 'C', 'l', 'u', 's', 't', 'e', 'r', 'P', 'a', 'r', 'a', 'm', 'e', 't', 'e', 'r', 's', '/', 'g', 'd', 'W', 'a', 'k', 'e', 'u', 'p', 'T', 'x', 'I', 'd', 'l', 'e'],
    ['/', 'F', 'l', 'e', 'x', 'R', 'a', 'y', 'C', 'o', 'n', 't', 'r', 'o', 'l', 'l', 'e', 'r', 's', '/', 'C', 'l', 'u', 's', 't', 'e', 'r', 'P', 'a', 'r', 'a', 'm', 'e', 't', 'e', 'r', 's', '/', 'g', 'd', 'W', 'a', 'k', 'e', 'u', 'p', 'T', 'x', 'I', 'd', 'l', 'e'],
    ['/', 'F', 'l', 'e', 'x', 'r', 'a', 'y', 'C', 'o', 'n', 't', 'r', 'o', 'l', 'l', 'e', 'r', 's', '/', 'C', 'l', 'u', 's', 't', 'e', 'r', 'P', 'a', 'r', 'a', 'm', 'e', 't', 'e', 'r', 's', '/', 'g', 'L', 'i', 's', 't', 'e', 'n', 'N', 'o', 'i', 's', 'e'],
    ['/', 'F', 'l', 'e', 'x', 'R', 'a', 'y', 'C', 'o', 'n', 't', 'r', 'o', 'l', 'l', 'e', 'r', 's', '/', 'C', 'l', 'u', 's', 't', 'e', 'r', 'P', 'a', 'r', 'a', 'm', 'e', 't', 'e', 'r', 's', '/', 'g', 'L', 'i', 's', 't', 'e', 'n', 'N', 'o', 'i', 's', 'e'],
    ['/', 'F', 'l', 'e', 'x', 'r', 'a', 'y', 'C', 'o', 'n', 't', 'r', 'o', 'l', 'l', 'e', 'r', 's', '/', 'C', 'l', 'u', 's', 't', 'e', 'r', 'P', 'a', 'r', 'a', 'm', 'e', 't', 'e', 'r', 's', '/', 'g', 'M', 'a', 'c', 'r', 'o', 'P', 'e', 'r', 'C', 'y', 'c', 'l', 'e'],
    ['/', 'F', 'l', 'e', 'x', 'R', 'a', 'y', 'C', 'o', 'n', 't', 'r', 'o', 'l', 'l', 'e', 'r', 's', '/', 'C', 'l', 'u', 's', 't', 'e', 'r', 'P', 'a', 'r', 'a', 'm', 'e', 't', 'e', 'r', 's', '/', 'g', 'M', 'a', 'c', 'r', 'o', 'P', 'e', 'r', 'C', 'y', 'c', 'l', 'e'],
    ['/', 'F', 'l', 'e', 'x', 'r', 'a', 'y', 'C', 'o', 'n', 't', 'r', 'o', 'l', 'l', 'e', 'r', 's', '/', 'C', 'l', 'u', 's', 't', 'e', 'r', 'P', 'a', 'r', 'a', 'm', 'e', 't', 'e', 'r', 's', '/', 'g', 'M', 'a', 'x', 'W', 'i', 't', 'h', 'o', 'u', 't', 'C', 'l', 'o', 'c', 'k', 'C', 'o', 'r', 'r', 'e', 'c', 't', 'i', 'o', 'n', 'F', 'a', 't', 'a', 'l'],
    ['/', 'F', 'l', 'e', 'x', 'R', 'a', 'y', 'C', 'o', 'n', 't', 'r', 'o', 'l', 'l', 'e', 'r', 's', '/', 'C', 'l', 'u', 's', 't', 'e', 'r', 'P', 'a', 'r', 'a', 'm', 'e', 't', 'e', 'r', 's', '/', 'g', 'M', 'a', 'x', 'W', 'i', 't', 'h', 'o', 'u', 't', 'C', 'l', 'o', 'c', 'k', 'C', 'o', 'r', 'r', 'e', 'c', 't', 'i', 'o', 'n', 'F', 'a', 't', 'a', 'l'],
    ['/', 'F', 'l', 'e', 'x', 'r', 'a', 'y', 'C', 'o', 'n', 't', 'r', 'o', 'l', 'l', 'e', 'r', 's', '/', 'C', 'l', 'u', 's', 't', 'e', 'r', 'P', 'a', 'r', 'a', 'm', 'e', 't', 'e', 'r', 's', '/', 'g', 'M', 'a', 'x', 'W', 'i', 't', 'h', 'o', 'u', 't', 'C', 'l', 'o', 'c', 'k', 'C', 'o', 'r', 'r', 'e', 'c', 't', 'i', 'o', 'n', 'P', 'a', 's', 's', 'i', 'v', 'e'],
    ['/', 'F', 'l', 'e', 'x', 'R', 'a', 'y', 'C', 'o', 'n', 't', 'r', 'o', 'l', 'l', 'e', 'r', 's', '/', 'C', 'l', 'u', 's', 't', 'e', 'r', 'P', 'a', 'r', 'a', 'm', 'e', 't', 'e', 'r', 's', '/', 'g', 'M', 'a', 'x', 'W', 'i', 't', 'h', 'o', 'u', 't', 'C', 'l', 'o', 'c', 'k', 'C', 'o', 'r', 'r', 'e', 'c', 't', 'i', 'o', 'n', 'P', 'a', 's', 's', 'i', 'v', 'e'],
    ['/', 'F', 'l', 'e', 'x', 'r', 'a', 'y', 'C', 'o', 'n', 't', 'r', 'o', 'l', 'l', 'e', 'r', 's', '/', 'C', 'l', 'u', 's', 't', 'e', 'r', 'P', 'a', 'r', 'a', 'm', 'e', 't', 'e', 'r', 's', '/', 'g', 'N', 'u', 'm', 'b', 'e', 'r', 'O', 'f', 'M', 'i', 'n', 'i', 'S', 'l', 'o', 't', 's'],
    ['/', 'F', 'l', 'e', 'x', 'R', 'a', 'y', 'C', 'o', 'n', 't', 'r', 'o', 'l', 'l', 'e', 'r', 's', '/', 'C', 'l', 'u', 's', 't', 'e', 'r', 'P', 'a', 'r', 'a', 'm', 'e', 't', 'e', 'r', 's', '/', 'g', 'N', 'u', 'm', 'b', 'e', 'r', 'O', 'f', 'M', 'i', 'n', 'i', 'S', 'l', 'o', 't', 's'],
    ['/', 'F', 'l', 'e', 'x', 'r', 'a', 'y', 'C', 'o', 'n', 't', 'r', 'o', 'l', 'l', 'e', 'r', 's', '/', 'C', 'l', 'u', 's', 't', 'e', 'r', 'P', 'a', 'r', 'a', 'm', 'e', 't', 'e', 'r', 's', '/', 'g', 'N', 'u', 'm', 'b', 'e', 'r', 'O', 'f', 'S', 't', 'a', 't', 'i', 'c', 'S', 'l', 'o', 't', 's'],
    ['/', 'F', 'l', 'e', 'x', 'R', 'a', 'y', 'C', 'o', 'n', 't', 'r', 'o', 'l', 'l', 'e', 'r', 's', '/', 'C', 'l', 'u', 's', 't', 'e', 'r', 'P', 'a', 'r', 'a', 'm', 'e', 't', 'e', 'r', 's', '/', 'g', 'N', 'u', 'm', 'b', 'e', 'r', 'O', 'f', 'S', 't', 'a', 't', 'i', 'c', 'S', 'l', 'o', 't', 's'],
    ['/', 'F', 'l', 'e', 'x', 'r', 'a', 'y', 'C', 'o', 'n', 't', 'r', 'o', 'l', 'l', 'e', 'r', 's', '/', 'C', 'l', 'u', 's', 't', 'e', 'r', 'P', 'a', 'r', 'a', 'm', 'e', 't', 'e', 'r', 's', '/', 'g', 'P', 'a', 'y', 'l', 'o', 'a', 'd', 'L', 'e', 'n', 'g', 't', 'h', 'S', 't', 'a', 't', 'i', 'c'],
    ['/', 'F', 'l', 'e', 'x', 'R', 'a', 'y', 'C', 'o', 'n', 't', 'r', 'o', 'l', 'l', 'e', 'r', 's', '/', 'C', 'l', 'u', 's', 't', 'e', 'r', 'P', 'a', 'r', 'a', 'm', 'e', 't', 'e', 'r', 's', '/', 'g', 'P', 'a', 'y', 'l', 'o', 'a', 'd', 'L', 'e', 'n', 'g', 't', 'h', 'S', 't', 'a', 't', 'i', 'c'],
    ['/', 'F', 'l', 'e', 'x', 'r', 'a', 'y', 'C', 'o', 'n', 't', 'r', 'o', 'l', 'l', 'e', 'r', 's', '/', 'C', 'l', 'u', 's', 't', 'e', 'r', 'P', 'a', 'r', 'a', 'm', 'e', 't', 'e', 'r', 's', '/', 'g', 'S', 'y', 'n', 'c', 'F', 'r', 'a', 'm', 'e', 'I', 'D', 'C', 'o', 'u', 'n', 't', 'M', 'a', 'x'],
    ['/', 'F', 'l', 'e', 'x', 'R', 'a', 'y', 'C', 'o', 'n', 't', 'r', 'o', 'l', 'l', 'e', 'r', 's', '/', 'C', 'l', 'u', 's', 't', 'e', 'r', 'P', 'a', 'r', 'a', 'm', 'e', 't', 'e', 'r', 's', '/', 'g', 'S', 'y', 'n', 'c', 'F', 'r', 'a', 'm', 'e', 'I', 'D', 'C', 'o', 'u', 'n', 't', 'M', 'a', 'x'],
    ['/', 'F', 'l', 'e', 'x', 'r', 'a', 'y', 'C', 'o', 'n', 't', 'r', 'o', 'l', 'l', 'e', 'r', 's', '/', 'N', 'a', 'm', 'e'],
    ['/', 'F', 'l', 'e', 'x', 'R', 'a', 'y', 'C', 'o', 'n', 't', 'r', 'o', 'l', 'l', 'e', 'r', 's', '/', 'N', 'a', 'm', 'e'],
    ['/', 'F', 'l', 'e', 'x', 'r', 'a', 'y', 'C', 'o', 'n', 't', 'r', 'o', 'l', 'l', 'e', 'r', 's', '/', 'N', 'e', 't', 'w', 'o', 'r', 'k'],
    ['/', 'F', 'l', 'e', 'x', 'R', 'a', 'y', 'C', 'o', 'n', 't', 'r', 'o', 'l', 'l', 'e', 'r', 's', '/', 'N', 'e', 't', 'w', 'o', 'r', 'k'],
    ['/', 'F', 'l', 'e', 'x', 'r', 'a', 'y', 'C', 'o', 'n', 't', 'r', 'o', 'l', 'l', 'e', 'r', 's', '/', 'N', 'o', 'd', 'e', 'P', 'a', 'r', 'a', 'm', 'e', 't', 'e', 'r', 's'],
    ['/', 'F', 'l', 'e', 'x', 'R', 'a', 'y', 'C', 'o', 'n', 't', 'r', 'o', 'l', 'l', 'e', 'r', 's', '/', 'N', 'o', 'd', 'e', 'P', 'a', 'r', 'a', 'm', 'e', 't', 'e', 'r', 's'],
    ['/', 'F', 'l', 'e', 'x', 'r', 'a', 'y', 'C', 'o', 'n', 't', 'r', 'o', 'l', 'l', 'e', 'r', 's', '/', 'N', 'o', 'd', 'e', 'P', 'a', 'r', 'a', 'm', 'e', 't', 'e', 'r', 's', '/', 'p', 'A', 'l', 'l', 'o', 'w', 'H', 'a', 'l', 't', 'D', 'u', 'e', 'T', 'o', 'C', 'l', 'o', 'c', 'k'],
    ['/', 'F', 'l', 'e', 'x', 'R', 'a', 'y', 'C', 'o', 'n', 't', 'r', 'o', 'l', 'l', 'e', 'r', 's', '/', 'N', 'o', 'd', 'e', 'P', 'a', 'r', 'a', 'm', 'e', 't', 'e', 'r', 's', '/', 'p', 'A', 'l', 'l', 'o', 'w', 'H', 'a', 'l', 't', 'D', 'u', 'e', 'T', 'o', 'C', 'l', 'o', 'c', 'k'],
    ['/', 'F', 'l', 'e', 'x', 'r', 'a', 'y', 'C', 'o', 'n', 't', 'r', 'o', 'l', 'l', 'e', 'r', 's', '/', 'N', 'o', 'd', 'e', 'P', 'a', 'r', 'a', 'm', 'e', 't', 'e', 'r', 's', '/', 'p', 'A', 'l', 'l', 'o', 'w', 'P', 'a', 's', 's', 'i', 'v', 'e', 'T', 'o', 'A', 'c', 't', 'i', 'v', 'e'],
    ['/', 'F', 'l', 'e', 'x', 'R', 'a', 'y', 'C', 'o', 'n', 't', 'r', 'o', 'l', 'l', 'e', 'r', 's', '/', 'N', 'o', 'd', 'e', 'P', 'a', 'r', 'a', 'm', 'e', 't', 'e', 'r', 's', '/', 'p', 'A', 'l', 'l', 'o', 'w', 'P', 'a', 's', 's', 'i', 'v', 'e', 'T', 'o', 'A', 'c', 't', 'i', 'v', 'e'],
    ['/', 'F', 'l', 'e', 'x', 'r', 'a', 'y', 'C', 'o', 'n', 't', 'r', 'o', 'l', 'l', 'e', 'r', 's', '/', 'N', 'o', 'd', 'e', 'P', 'a', 'r', 'a', 'm', 'e', 't', 'e', 'r', 's', '/', 'p', 'C', 'h', 'a', 'n', 'n', 'e', 'l', 's'],
    ['/', 'F', 'l', 'e', 'x', 'R', 'a', 'y', 'C', 'o', 'n', 't', 'r', 'o', 'l', 'l', 'e', 'r', 's', '/', 'N', 'o', 'd', 'e', 'P', 'a', 'r', 'a', 'm', 'e', 't', 'e', 'r', 's', '/', 'p', 'C', 'h', 'a', 'n', 'n', 'e', 'l', 's'],
    ['/', 'F', 'l', 'e', 'x', 'r', 'a', 'y', 'C', 'o', 'n', 't', 'r', 'o', 'l', 'l', 'e', 'r', 's', '/', 'N', 'o', 'd', 'e', 'P', 'a', 'r', 'a', 'm', 'e', 't', 'e', 'r', 's', '/', 'p', 'C', 'l', 'u', 's', 't', 'e', 'r', 'D', 'r', 'i', 'f', 't', 'D', 'a', 'm', 'p', 'i', 'n', 'g'],
    ['/', 'F', 'l', 'e', 'x', 'R', 'a', 'y', 'C', 'o', 'n', 't', 'r', 'o', 'l', 'l', 'e', 'r', 's', '/', 'N', 'o', 'd', 'e', 'P', 'a', 'r', 'a', 'm', 'e', 't', 'e', 'r', 's', '/', 'p', 'C', 'l', 'u', 's', 't', 'e', 'r', 'D', 'r', 'i', 'f', 't', 'D', 'a', 'm', 'p', 'i', 'n', 'g'],
    ['/', 'F', 'l', 'e', 'x', 'r', 'a', 'y', 'C', 'o', 'n', 't', 'r', 'o', 'l', 'l', 'e', 'r', 's', '/', 'N', 'o', 'd', 'e', 'P', 'a', 'r', 'a', 'm', 'e', 't', 'e', 'r', 's', '/', 'p', 'd', 'A', 'c', 'c', 'e', 'p', 't', 'e', 'd', 'S', 't', 'a', 'r', 't', 'u', 'p', 'R', 'a', 'n', 'g', 'e'],
    ['/', 'F', 'l', 'e', 'x', 'R', 'a', 'y', 'C', 'o', 'n', 't', 'r', 'o', 'l', 'l', 'e', 'r', 's', '/', 'N', 'o', 'd', 'e', 'P', 'a', 'r', 'a', 'm', 'e', 't', 'e', 'r', 's', '/', 'p', 'd', 'A', 'c', 'c', 'e', 'p', 't', 'e', 'd', 'S', 't', 'a', 'r', 't', 'u', 'p', 'R', 'a', 'n', 'g', 'e'],
    ['/', 'F', 'l', 'e', 'x', 'r', 'a', 'y', 'C', 'o', 'n', 't', 'r', 'o', 'l', 'l', 'e', 'r', 's', '/', 'N', 'o', 'd', 'e', 'P', 'a', 'r', 'a', 'm', 'e', 't', 'e', 'r', 's', '/', 'p', 'd', 'L', 'i', 's', 't', 'e', 'n', 'T', 'i', 'm', 'e', 'o', 'u', 't'],
    ['/', 'F', 'l', 'e', 'x', 'R', 'a', 'y', 'C', 'o', 'n', 't', 'r', 'o', 'l', 'l', 'e', 'r', 's', '/', 'N', 'o', 'd', 'e', 'P', 'a', 'r', 'a', 'm', 'e', 't', 'e', 'r', 's', '/', 'p', 'd', 'L', 'i', 's', 't', 'e', 'n', 'T', 'i', 'm', 'e', 'o', 'u', 't'],
    ['/', 'F', 'l', 'e', 'x', 'r', 'a', 'y', 'C', 'o', 'n', 't', 'r', 'o', 'l', 'l', 'e', 'r', 's', '/', 'N', 'o', 'd', 'e', 'P', 'a', 'r', 'a', 'm', 'e', 't', 'e', 'r', 's', '/', 'p', 'd', 'M', 'i', 'c', 'r', 'o', 't', 'i', 'c', 'k'],
    ['/', 'F', 'l', 'e', 'x', 'R', 'a', 'y', 'C', 'o', 'n', 't', 'r', 'o', 'l', 'l', 'e', 'r', 's', '/', 'N', 'o', 'd', 'e', 'P', 'a', 'r', 'a', 'm', 'e', 't', 'e', 'r', 's', '/', 'p', 'd', 'M', 'i', 'c', 'r', 'o', 't', 'i', 'c', 'k'],
    ['/', 'F', 'l', 'e', 'x', 'r', 'a', 'y', 'C', 'o', 'n', 't', 'r', 'o', 'l', 'l', 'e', 'r', 's', '/', 'N', 'o', 'd', 'e', 'P', 'a', 'r', 'a', 'm', 'e', 't', 'e', 'r', 's', '/', 'p', 'K', 'e', 'y', 'S', 'l', 'o', 't', 'I', 'd'],
    ['/', 'F', 'l', 'e', 'x', 'R', 'a', 'y', 'C', 'o', 'n', 't', 'r', 'o', 'l', 'l', 'e', 'r', 's', '/', 'N', 'o', 'd', 'e', 'P', 'a', 'r', 'a', 'm', 'e', 't', 'e', 'r', 's', '/', 'p', 'K', 'e', 'y', 'S', 'l', 'o', 't', 'I', 'd'],
    ['/', 'F', 'l', 'e', 'x', 'r', 'a', 'y', 'C', 'o', 'n', 't', 'r', 'o', 'l', 'l', 'e', 'r', 's', '/', 'N', 'o', 'd', 'e', 'P', 'a', 'r', 'a', 'm', 'e', 't', 'e', 'r', 's', '/', 'p', 'K', 'e', 'y', 'S', 'l', 'o', 't', 'O', 'n', 'l', 'y', 'E', 'n', 'a', 'b', 'l', 'e', 'd'],
    ['/', 'F', 'l', 'e', 'x', 'R', 'a', 'y', 'C', 'o', 'n', 't', 'r', 'o', 'l', 'l', 'e', 'r', 's', '/', 'N', 'o', 'd', 'e', 'P', 'a', 'r', 'a', 'm', 'e', 't', 'e', 'r', 's', '/', 'p', 'K', 'e', 'y', 'S', 'l', 'o', 't', 'O', 'n', 'l', 'y', 'E', 'n', 'a', 'b', 'l', 'e', 'd'],
    ['/', 'F', 'l', 'e', 'x', 'r', 'a', 'y', 'C', 'o', 'n', 't', 'r', 'o', 'l', 'l', 'e', 'r', 's', '/', 'N', 'o', 'd', 'e', 'P', 'a', 'r', 'a', 'm', 'e', 't', 'e', 'r', 's', '/', 'p', 'K', 'e', 'y', 'S', 'l', 'o', 't', 'U', 's', 'e', 'd', 'F', 'o', 'r', 'S', 't', 'a', 'r', 't', 'u', 'p'],
    ['/', 'F', 'l', 'e', 'x', 'R', 'a', 'y', 'C', 'o', 'n', 't', 'r', 'o', 'l', 'l', 'e', 'r', 's', '/', 'N', 'o', 'd', 'e', 'P', 'a', 'r', 'a', 'm', 'e', 't', 'e', 'r', 's', '/', 'p', 'K', 'e', 'y', 'S', 'l', 'o', 't', 'U', 's', 'e', 'd', 'F', 'o', 'r', 'S', 't', 'a', 'r', 't', 'u', 'p'],
    ['/', 'F', 'l', 'e', 'x', 'r', 'a', 'y', 'C', 'o', 'n', 't', 'r', 'o', 'l', 'l', 'e', 'r', 's', '/', 'N', 'o', 'd', 'e', 'P', 'a', 'r', 'a', 'm', 'e', 't', 'e', 'r', 's', '/', 'p', 'K', 'e', 'y', 'S', 'l', 'o', 't', 'U', 's', 'e', 'd', 'F', 'o', 'r', 'S', 'y', 'n', 'c'],
    ['/', 'F', 'l', 'e', 'x', 'R', 'a', 'y', 'C', 'o', 'n', 't', 'r', 'o', 'l', 'l', 'e', 'r', 's', '/', 'N', 'o', 'd', 'e', 'P', 'a', 'r', 'a', 'm', 'e', 't', 'e', 'r', 's', '/', 'p', 'K', 'e', 'y', 'S', 'l', 'o', 't', 'U', 's', 'e', 'd', 'F', 'o', 'r', 'S', 'y', 'n', 'c'],
    ['/', 'F', 'l', 'e', 'x', 'r', 'a', 'y', 'C', 'o', 'n', 't', 'r', 'o', 'l', 'l', 'e', 'r', 's', '/', 'N', 'o', 'd', 'e', 'P', 'a', 'r', 'a', 'm', 'e', 't', 'e', 'r', 's', '/', 'p', 'L', 'a', 't', 'e', 's', 't', 'T', 'x'],
    ['/', 'F', 'l', 'e', 'x', 'R', 'a', 'y', 'C', 'o', 'n', 't', 'r', 'o', 'l', 'l', 'e', 'r', 's', '/', 'N', 'o', 'd', 'e', 'P', 'a', 'r', 'a', 'm', 'e', 't', 'e', 'r', 's', '/', 'p', 'L', 'a', 't', 'e', 's', 't', 'T', 'x'],
    ['/', 'F', 'l', 'e', 'x', 'r', 'a', 'y', 'C', 'o', 'n', 't', 'r', 'o', 'l', 'l', 'e', 'r', 's', '/', 'N', 'o', 'd', 'e', 'P', 'a', 'r', 'a', 'm', 'e', 't', 'e', 'r', 's', '/', 'p', 'M', 'a', 'c', 'r', 'o', 'I', 'n', 'i', 't', 'i', 'a', 'l', 'O', 'f', 'f', 's', 'e', 't', 'A'],
    ['/', 'F', 'l', 'e', 'x', 'R', 'a', 'y', 'C', 'o', 'n', 't', 'r', 'o', 'l', 'l', 'e', 'r', 's', '/', 'N', 'o', 'd', 'e', 'P', 'a', 'r', 'a', 'm', 'e', 't', 'e', 'r', 's', '/', 'p', 'M', 'a', 'c', 'r', 'o', 'I', 'n', 'i', 't', 'i', 'a', 'l', 'O', 'f', 'f', 's', 'e', 't', 'A'],
    ['/', 'F', 'l', 'e', 'x', 'r', 'a', 'y', 'C', 'o', 'n', 't', 'r', 'o', 'l', 'l', 'e', 'r', 's', '/', 'N', 'o', 'd', 'e', 'P', 'a', 'r', 'a', 'm', 'e', 't', 'e', 'r', 's', '/', 'p', 'M', 'a', 'c', 'r', 'o', 'I', 'n', 'i', 't', 'i', 'a', 'l', 'O', 'f', 'f', 's', 'e', 't', 'B'],
    ['/', 'F', 'l', 'e', 'x', 'R', 'a', 'y', 'C', 'o', 'n', 't', 'r', 'o', 'l', 'l', 'e', 'r', 's', '/', 'N', 'o', 'd', 'e', 'P', 'a', 'r', 'a', 'm', 'e', 't', 'e', 'r', 's', '/', 'p', 'M', 'a', 'c', 'r', 'o', 'I', 'n', 'i', 't', 'i', 'a', 'l', 'O', 'f', 'f', 's', 'e', 't', 'B'],
    ['/', 'F', 'l', 'e', 'x', 'r', 'a', 'y', 'C', 'o', 'n', 't', 'r', 'o', 'l', 'l', 'e', 'r', 's', '/', 'N', 'o', 'd', 'e', 'P', 'a', 'r', 'a', 'm', 'e', 't', 'e', 'r', 's', '/', 'p', 'M', 'i', 'c', 'r', 'o', 'I', 'n', 'i', 't', 'i', 'a', 'l', 'O', 'f', 'f', 's', 'e', 't', 'A'],
    ['/', 'F', 'l', 'e', 'x', 'R', 'a', 'y', 'C', 'o', 'n', 't', 'r', 'o', 'l', 'l', 'e', 'r', 's', '/', 'N', 'o', 'd', 'e', 'P', 'a', 'r', 'a', 'm', 'e', 't', 'e', 'r', 's', '/', 'p', 'M', 'i', 'c', 'r', 'o', 'I', 'n', 'i', 't', 'i', 'a', 'l', 'O', 'f', 'f', 's', 'e', 't', 'A'],
    ['/', 'F', 'l', 'e', 'x', 'r', 'a', 'y', 'C', 'o', 'n', 't', 'r', 'o', 'l', 'l', 'e', 'r', 's', '/', 'N', 'o', 'd', 'e', 'P', 'a', 'r', 'a', 'm', 'e', 't', 'e', 'r', 's', '/', 'p', 'M', 'i', 'c', 'r', 'o', 'I', 'n', 'i', 't', 'i', 'a', 'l', 'O', 'f', 'f', 's', 'e', 't', 'B'],
    ['/', 'F', 'l', 'e', 'x', 'R', 'a', 'y', 'C', 'o', 'n', 't', 'r', 'o', 'l', 'l', 'e', 'r', 's', '/', 'N', 'o', 'd', 'e', 'P', 'a', 'r', 'a', 'm', 'e', 't', 'e', 'r', 's', '/', 'p', 'M', 'i', 'c', 'r', 'o', 'I', 'n', 'i', 't', 'i', 'a', 'l', 'O', 'f', 'f', 's', 'e', 't', 'B'],
    ['/', 'F', 'l', 'e', 'x', 'r', 'a', 'y', 'C', 'o', 'n', 't', 'r', 'o', 'l', 'l', 'e', 'r', 's', '/', 'N', 'o', 'd', 'e', 'P', 'a', 'r', 'a', 'm', 'e', 't', 'e', 'r', 's', '/', 'p', 'M', 'i', 'c', 'r', 'o', 'P', 'e', 'r', 'C', 'y', 'c', 'l', 'e'],
    ['/', 'F', 'l', 'e', 'x', 'R', 'a', 'y', 'C', 'o', 'n', 't', 'r', 'o', 'l', 'l', 'e', 'r', 's', '/', 'N', 'o', 'd', 'e', 'P', 'a', 'r', 'a', 'm', 'e', 't', 'e', 'r', 's', '/', 'p', 'M', 'i', 'c', 'r', 'o', 'P', 'e', 'r', 'C', 'y', 'c', 'l', 'e'],
    ['/', 'F', 'l', 'e', 'x', 'r', 'a', 'y', 'C', 'o', 'n', 't', 'r', 'o', 'l', 'l', 'e', 'r', 's', '/', 'N', 'o', 'd', 'e', 'P', 'a', 'r', 'a', 'm', 'e', 't', 'e', 'r', 's', '/', 'p', 'O', 'f', 'f', 's', 'e', 't', 'C', 'o', 'r', 'r', 'e', 'c', 't', 'i', 'o', 'n', 'O', 'u', 't'],
    ['/', 'F', 'l', 'e', 'x', 'R', 'a', 'y', 'C', 'o', 'n', 't', 'r', 'o', 'l', 'l', 'e', 'r', 's', '/', 'N', 'o', 'd', 'e', 'P', 'a', 'r', 'a', 'm', 'e', 't', 'e', 'r', 's', '/', 'p', 'O', 'f', 'f', 's', 'e', 't', 'C', 'o', 'r', 'r', 'e', 'c', 't', 'i', 'o', 'n', 'O', 'u', 't'],
    ['/', 'F', 'l', 'e', 'x', 'r', 'a', 'y', 'C', 'o', 'n', 't', 'r', 'o', 'l', 'l', 'e', 'r', 's', '/', 'N', 'o', 'd', 'e', 'P', 'a', 'r', 'a', 'm', 'e', 't', 'e', 'r', 's', '/', 'p', 'O', 'f', 'f', 's', 'e', 't', 'C', 'o', 'r', 'r', 'e', 'c', 't', 'i', 'o', 'n', 'S', 't', 'a', 'r', 't'],
    ['/', 'F', 'l', 'e', 'x', 'R', 'a', 'y', 'C', 'o', 'n', 't', 'r', 'o', 'l', 'l', 'e', 'r', 's', '/', 'N', 'o', 'd', 'e', 'P', 'a', 'r', 'a', 'm', 'e', 't', 'e', 'r', 's', '/', 'p', 'O', 'f', 'f', 's', 'e', 't', 'C', 'o', 'r', 'r', 'e', 'c', 't', 'i', 'o', 'n', 'S', 't', 'a', 'r', 't'],
    ['/', 'F', 'l', 'e', 'x', 'r', 'a', 'y', 'C', 'o', 'n', 't', 'r', 'o', 'l', 'l', 'e', 'r', 's', '/', 'N', 'o', 'd', 'e', 'P', 'a', 'r', 'a', 'm', 'e', 't', 'e', 'r', 's', '/', 'p', 'R', 'a', 't', 'e', 'C', 'o', 'r', 'r', 'e', 'c', 't', 'i', 'o', 'n', 'O', 'u', 't'],
    ['/', 'F', 'l', 'e', 'x', 'R', 'a', 'y', 'C', 'o', 'n', 't', 'r', 'o', 'l', 'l', 'e', 'r', 's', '/', 'N', 'o', 'd', 'e', 'P', 'a', 'r', 'a', 'm', 'e', 't', 'e', 'r', 's', '/', 'p', 'R', 'a', 't', 'e', 'C', 'o', 'r', 'r', 'e', 'c', 't', 'i', 'o', 'n', 'O', 'u', 't'],
    ['/', 'F', 'l', 'e', 'x', 'r', 'a', 'y', 'C', 'o', 'n', 't', 'r', 'o', 'l', 'l', 'e', 'r', 's', '/', 'N', 'o', 'd', 'e', 'P', 'a', 'r', 'a', 'm', 'e', 't', 'e', 'r', 's', '/', 'p', 'S', 'a', 'm', 'p', 'l', 'e', 's', 'P', 'e', 'r', 'M', 'i', 'c', 'r', 'o', 't', 'i', 'c', 'k'],
    ['/', 'F', 'l', 'e', 'x', 'R', 'a', 'y', 'C', 'o', 'n', 't', 'r', 'o', 'l', 'l', 'e', 'r', 's', '/', 'N', 'o', 'd', 'e', 'P', 'a', 'r', 'a', 'm', 'e', 't', 'e', 'r', 's', '/', 'p', 'S', 'a', 'm', 'p', 'l', 'e', 's', 'P', 'e', 'r', 'M', 'i', 'c', 'r', 'o', 't', 'i', 'c', 'k'],
    ['/', 'F', 'l', 'e', 'x', 'r', 'a', 'y', 'C', 'o', 'n', 't', 'r', 'o', 'l', 'l', 'e', 'r', 's', '/', 'N', 'o', 'd', 'e', 'P', 'a', 'r', 'a', 'm', 'e', 't', 'e', 'r', 's', '/', 'p', 'W', 'a', 'k', 'e', 'u', 'p', 'C', 'h', 'a', 'n', 'n', 'e', 'l'],
    ['/', 'F', 'l', 'e', 'x', 'R', 'a', 'y', 'C', 'o', 'n', 't', 'r', 'o', 'l', 'l', 'e', 'r', 's', '/', 'N', 'o', 'd', 'e', 'P', 'a', 'r', 'a', 'm', 'e', 't', 'e', 'r', 's', '/', 'p', 'W', 'a', 'k', 'e', 'u', 'p', 'C', 'h', 'a', 'n', 'n', 'e', 'l'],
    ['/', 'F', 'l', 'e', 'x', 'r', 'a', 'y', 'C', 'o', 'n', 't', 'r', 'o', 'l', 'l', 'e', 'r', 's', '/', 'N', 'o', 'd', 'e', 'P', 'a', 'r', 'a', 'm', 'e', 't', 'e', 'r', 's', '/', 'p', 'W', 'a', 'k', 'e', 'u', 'p', 'P', 'a', 't', 't', 'e', 'r', 'n'],
    ['/', 'F', 'l', 'e', 'x', 'R', 'a', 'y', 'C', 'o', 'n', 't', 'r', 'o', 'l', 'l', 'e', 'r', 's', '/', 'N', 'o', 'd', 'e', 'P', 'a', 'r', 'a', 'm', 'e', 't', 'e', 'r', 's', '/', 'p', 'W', 'a', 'k', 'e', 'u', 'p', 'P', 'a', 't', 't', 'e', 'r', 'n'],
    ['/', 'F', 'l', 'e', 'x', 'r', 'a', 'y', 'C', 'o', 'n', 't', 'r', 'o', 'l', 'l', 'e', 'r', 's', '/', 'N', 'o', 'd', 'e', 'P', 'a', 'r', 'a', 'm', 'e', 't', 'e', 'r', 's', '/', 'p', 'S', 'e', 'c', 'o', 'n', 'd', 'K', 'e', 'y', 'S', 'l', 'o', 't', 'I', 'd'],
    ['/', 'F', 'l', 'e', 'x', 'R', 'a', 'y', 'C', 'o', 'n', 't', 'r', 'o', 'l', 'l', 'e', 'r', 's', '/', 'N', 'o', 'd', 'e', 'P', 'a', 'r', 'a', 'm', 'e', 't', 'e', 'r', 's', '/', 'p', 'S', 'e', 'c', 'o', 'n', 'd', 'K', 'e', 'y', 'S', 'l', 'o', 't', 'I', 'd'],
    ['/', 'F', 'l', 'e', 'x', 'r', 'a', 'y', 'C', 'o', 'n', 't', 'r', 'o', 'l', 'l', 'e', 'r', 's', '/', 'N', 'o', 'd', 'e', 'P', 'a', 'r', 'a', 'm', 'e', 't', 'e', 'r', 's', '/', 'p', 'T', 'w', 'o', 'K', 'e', 'y', 'S', 'l', 'o', 't', 'M', 'o', 'd', 'e'],
    ['/', 'F', 'l', 'e', 'x', 'R', 'a', 'y', 'C', 'o', 'n', 't', 'r', 'o', 'l', 'l', 'e', 'r', 's', '/', 'N', 'o', 'd', 'e', 'P', 'a', 'r', 'a', 'm', 'e', 't', 'e', 'r', 's', '/', 'p', 'T', 'w', 'o', 'K', 'e', 'y', 'S', 'l', 'o', 't', 'M', 'o', 'd', 'e'],
    ['/', 'F', 'l', 'e', 'x', 'r', 'a', 'y', 'C', 'o', 'n', 't', 'r', 'o', 'l', 'l', 'e', 'r', 's', '/', 'R', 'e', 'p', 'l', 'a', 'y'],
    ['/', 'F', 'l', 'e', 'x', 'R', 'a', 'y', 'C', 'o', 'n', 't', 'r', 'o', 'l', 'l', 'e', 'r', 's', '/', 'R', 'e', 'p', 'l', 'a', 'y'],
    ['/', 'F', 'l', 'e', 'x', 'r', 'a', 'y', 'C', 'o', 'n', 't', 'r', 'o', 'l', 'l', 'e', 'r', 's', '/', 'R', 'e', 'p', 'l', 'a', 'y', '/', 'D', 'i', 'r', 'e', 'c', 't', 'i', 'o', 'n'],
    ['/', 'F', 'l', 'e', 'x', 'R', 'a', 'y', 'C', 'o', 'n', 't', 'r', 'o', 'l', 'l', 'e', 'r', 's', '/', 'R', 'e', 'p', 'l', 'a', 'y', '/', 'D', 'i', 'r', 'e', 'c', 't', 'i', 'o', 'n'],
    ['/', 'F', 'l', 'e', 'x', 'r', 'a', 'y', 'C', 'o', 'n', 't', 'r', 'o', 'l', 'l', 'e', 'r', 's', '/', 'R', 'e', 'p', 'l', 'a', 'y', '/', 'M', 'd', 'f', 'C', 'h', 'a', 'n', 'n', 'e', 'l'],
    ['/', 'F', 'l', 'e', 'x', 'R', 'a', 'y', 'C', 'o', 'n', 't', 'r', 'o', 'l', 'l', 'e', 'r', 's', '/', 'R', 'e', 'p', 'l', 'a', 'y', '/', 'M', 'd', 'f', 'C', 'h', 'a', 'n', 'n', 'e', 'l'],
    ['/', 'F', 'l', 'e', 'x', 'r', 'a', 'y', 'C', 'o', 'n', 't', 'r', 'o', 'l', 'l', 'e', 'r', 's', '/', 'R', 'e', 'p', 'l', 'a', 'y', '/', 'M', 'd', 'f', 'C', 'h', 'a', 'n', 'n', 'e', 'l', '/', 'C', 'h', 'a', 'n', 'n', 'e', 'l', 'N', 'a', 'm', 'e'],
    ['/', 'F', 'l', 'e', 'x', 'R', 'a', 'y', 'C', 'o', 'n', 't', 'r', 'o', 'l', 'l', 'e', 'r', 's', '/', 'R', 'e', 'p', 'l', 'a', 'y', '/', 'M', 'd', 'f', 'C', 'h', 'a', 'n', 'n', 'e', 'l', '/', 'C', 'h', 'a', 'n', 'n', 'e', 'l', 'N', 'a', 'm', 'e'],
    ['/', 'F', 'l', 'e', 'x', 'r', 'a', 'y', 'C', 'o', 'n', 't', 'r', 'o', 'l', 'l', 'e', 'r', 's', '/', 'R', 'e', 'p', 'l', 'a', 'y', '/', 'M', 'd', 'f', 'C', 'h', 'a', 'n', 'n', 'e', 'l', '/', 'C', 'h', 'a', 'n', 'n', 'e', 'l', 'P', 'a', 't', 'h'],
    ['/', 'F', 'l', 'e', 'x', 'R', 'a', 'y', 'C', 'o', 'n', 't', 'r', 'o', 'l', 'l', 'e', 'r', 's', '/', 'R', 'e', 'p', 'l', 'a', 'y', '/', 'M', 'd', 'f', 'C', 'h', 'a', 'n', 'n', 'e', 'l', '/', 'C', 'h', 'a', 'n', 'n', 'e', 'l', 'P', 'a', 't', 'h'],
    ['/', 'F', 'l', 'e', 'x', 'r', 'a', 'y', 'C', 'o', 'n', 't', 'r', 'o', 'l', 'l', 'e', 'r', 's', '/', 'R', 'e', 'p', 'l', 'a', 'y', '/', 'M', 'd', 'f', 'C', 'h', 'a', 'n', 'n', 'e', 'l', '/', 'C', 'h', 'a', 'n', 'n', 'e', 'l', 'S', 'o', 'u', 'r', 'c', 'e'],
    ['/', 'F', 'l', 'e', 'x', 'R', 'a', 'y', 'C', 'o', 'n', 't', 'r', 'o', 'l', 'l', 'e', 'r', 's', '/', 'R', 'e', 'p', 'l', 'a', 'y', '/', 'M', 'd', 'f', 'C', 'h', 'a', 'n', 'n', 'e', 'l', '/', 'C', 'h', 'a', 'n', 'n', 'e', 'l', 'S', 'o', 'u', 'r', 'c', 'e'],
    ['/', 'F', 'l', 'e', 'x', 'r', 'a', 'y', 'C', 'o', 'n', 't', 'r', 'o', 'l', 'l', 'e', 'r', 's', '/', 'R', 'e', 'p', 'l', 'a', 'y', '/', 'M', 'd', 'f', 'C', 'h', 'a', 'n', 'n', 'e', 'l', '/', 'G', 'r', 'o', 'u', 'p', 'N', 'a', 'm', 'e'],
    ['/', 'F', 'l', 'e', 'x', 'R', 'a', 'y', 'C', 'o', 'n', 't', 'r', 'o', 'l', 'l', 'e', 'r', 's', '/', 'R', 'e', 'p', 'l', 'a', 'y', '/', 'M', 'd', 'f', 'C', 'h', 'a', 'n', 'n', 'e', 'l', '/', 'G', 'r', 'o', 'u', 'p', 'N', 'a', 'm', 'e'],
    ['/', 'F', 'l', 'e', 'x', 'r', 'a', 'y', 'C', 'o', 'n', 't', 'r', 'o', 'l', 'l', 'e', 'r', 's', '/', 'R', 'e', 'p', 'l', 'a', 'y', '/', 'M', 'd', 'f', 'C', 'h', 'a', 'n', 'n', 'e', 'l', '/', 'G', 'r', 'o', 'u', 'p', 'P', 'a', 't', 'h'],
    ['/', 'F', 'l', 'e', 'x', 'R', 'a', 'y', 'C', 'o', 'n', 't', 'r', 'o', 'l', 'l', 'e', 'r', 's', '/', 'R', 'e', 'p', 'l', 'a', 'y', '/', 'M', 'd', 'f', 'C', 'h', 'a', 'n', 'n', 'e', 'l', '/', 'G', 'r', 'o', 'u', 'p', 'P', 'a', 't', 'h'],
    ['/', 'F', 'l', 'e', 'x', 'r', 'a', 'y', 'C', 'o', 'n', 't', 'r', 'o', 'l', 'l', 'e', 'r', 's', '/', 'R', 'e', 'p', 'l', 'a', 'y', '/', 'M', 'd', 'f', 'C', 'h', 'a', 'n', 'n', 'e', 'l', '/', 'G', 'r', 'o', 'u', 'p', 'S', 'o', 'u', 'r', 'c', 'e'],
    ['/', 'F', 'l', 'e', 'x', 'R', 'a', 'y', 'C', 'o', 'n', 't', 'r', 'o', 'l', 'l', 'e', 'r', 's', '/', 'R', 'e', 'p', 'l', 'a', 'y', '/', 'M', 'd', 'f', 'C', 'h', 'a', 'n', 'n', 'e', 'l', '/', 'G', 'r', 'o', 'u', 'p', 'S', 'o', 'u', 'r', 'c', 'e'],
    ['/', 'F', 'l', 'e', 'x', 'r', 'a', 'y', 'C', 'o', 'n', 't', 'r', 'o', 'l', 'l', 'e', 'r', 's', '/', 'R', 'e', 'p', 'l', 'a', 'y', '/', 'U', 's', 'e', 'T', 'r', 'a', 'c', 'e', 'S', 'o', 'u', 'r', 'c', 'e'],
    ['/', 'F', 'l', 'e', 'x', 'R', 'a', 'y', 'C', 'o', 'n', 't', 'r', 'o', 'l', 'l', 'e', 'r', 's', '/', 'R', 'e', 'p', 'l', 'a', 'y', '/', 'U', 's', 'e', 'T', 'r', 'a', 'c', 'e', 'S', 'o', 'u', 'r', 'c', 'e'],
    ['/', 'F', 'l', 'e', 'x', 'r', 'a', 'y', 'C', 'o', 'n', 't', 'r', 'o', 'l', 'l', 'e', 'r', 's', '/', 'T', 'x', 'B', 'u', 'f', 'f', 'e', 'r', 'C', 'o', 'n', 'f', 'i', 'g', 'u', 'r', 'a', 't', 'i', 'o', 'n', 's'],
    ['/', 'F', 'l', 'e', 'x', 'R', 'a', 'y', 'C', 'o', 'n', 't', 'r', 'o', 'l', 'l', 'e', 'r', 's', '/', 'T', 'x', 'B', 'u', 'f', 'f', 'e', 'r', 'C', 'o', 'n', 'f', 'i', 'g', 'u', 'r', 'a', 't', 'i', 'o', 'n', 's'],
    ['/', 'F', 'l', 'e', 'x', 'r', 'a', 'y', 'C', 'o', 'n', 't', 'r', 'o', 'l', 'l', 'e', 'r', 's', '/', 'T', 'x', 'B', 'u', 'f', 'f', 'e', 'r', 'C', 'o', 'n', 'f', 'i', 'g', 'u', 'r', 'a', 't', 'i', 'o', 'n', 's', '/', 'c', 'h', 'a', 'n', 'n', 'e', 'l', 's'],
    ['/', 'F', 'l', 'e', 'x', 'R', 'a', 'y', 'C', 'o', 'n', 't', 'r', 'o', 'l', 'l', 'e', 'r', 's', '/', 'T', 'x', 'B', 'u', 'f', 'f', 'e', 'r', 'C', 'o', 'n', 'f', 'i', 'g', 'u', 'r', 'a', 't', 'i', 'o', 'n', 's', '/', 'c', 'h', 'a', 'n', 'n', 'e', 'l', 's'],
    ['/', 'F', 'l', 'e', 'x', 'r', 'a', 'y', 'C', 'o', 'n', 't', 'r', 'o', 'l', 'l', 'e', 'r', 's', '/', 'T', 'x', 'B', 'u', 'f', 'f', 'e', 'r', 'C', 'o', 'n', 'f', 'i', 'g', 'u', 'r', 'a', 't', 'i', 'o', 'n', 's', '/', 'h', 'e', 'a', 'd', 'e', 'r', 'C', 'r', 'c'],
    ['/', 'F', 'l', 'e', 'x', 'R', 'a', 'y', 'C', 'o', 'n', 't', 'r', 'o', 'l', 'l', 'e', 'r', 's', '/', 'T', 'x', 'B', 'u', 'f', 'f', 'e', 'r', 'C', 'o', 'n', 'f', 'i', 'g', 'u', 'r', 'a', 't', 'i', 'o', 'n', 's', '/', 'h', 'e', 'a', 'd', 'e', 'r', 'C', 'r', 'c'],
    ['/', 'F', 'l', 'e', 'x', 'r', 'a', 'y', 'C', 'o', 'n', 't', 'r', 'o', 'l', 'l', 'e', 'r', 's', '/', 'T', 'x', 'B', 'u', 'f', 'f', 'e', 'r', 'C', 'o', 'n', 'f', 'i', 'g', 'u', 'r', 'a', 't', 'i', 'o', 'n', 's', '/', 'o', 'f', 'f', 's', 'e', 't'],
    ['/', 'F', 'l', 'e', 'x', 'R', 'a', 'y', 'C', 'o', 'n', 't', 'r', 'o', 'l', 'l', 'e', 'r', 's', '/', 'T', 'x', 'B', 'u', 'f', 'f', 'e', 'r', 'C', 'o', 'n', 'f', 'i', 'g', 'u', 'r', 'a', 't', 'i', 'o', 'n', 's', '/', 'o', 'f', 'f', 's', 'e', 't'],
    ['/', 'F', 'l', 'e', 'x', 'r', 'a', 'y', 'C', 'o', 'n', 't', 'r', 'o', 'l', 'l', 'e', 'r', 's', '/', 'T', 'x', 'B', 'u', 'f', 'f', 'e', 'r', 'C', 'o', 'n', 'f', 'i', 'g', 'u', 'r', 'a', 't', 'i', 'o', 'n', 's', '/', 'P', 'P', 'i', 'n', 'd', 'i', 'c', 'a', 't', 'o', 'r'],
    ['/', 'F', 'l', 'e', 'x', 'R', 'a', 'y', 'C', 'o', 'n', 't', 'r', 'o', 'l', 'l', 'e', 'r', 's', '/', 'T', 'x', 'B', 'u', 'f', 'f', 'e', 'r', 'C', 'o', 'n', 'f', 'i', 'g', 'u', 'r', 'a', 't', 'i', 'o', 'n', 's', '/', 'P', 'P', 'i', 'n', 'd', 'i', 'c', 'a', 't', 'o', 'r'],
    ['/', 'F', 'l', 'e', 'x', 'r', 'a', 'y', 'C', 'o', 'n', 't', 'r', 'o', 'l', 'l', 'e', 'r', 's', '/', 'T', 'x', 'B', 'u', 'f', 'f', 'e', 'r', 'C', 'o', 'n', 'f', 'i', 'g', 'u', 'r', 'a', 't', 'i', 'o', 'n', 's', '/', 'r', 'e', 'p', 'e', 't', 'i', 't', 'i', 'o', 'n'],
    ['/', 'F', 'l', 'e', 'x', 'R', 'a', 'y', 'C', 'o', 'n', 't', 'r', 'o', 'l', 'l', 'e', 'r', 's', '/', 'T', 'x', 'B', 'u', 'f', 'f', 'e', 'r', 'C', 'o', 'n', 'f', 'i', 'g', 'u', 'r', 'a', 't', 'i', 'o', 'n', 's', '/', 'r', 'e', 'p', 'e', 't', 'i', 't', 'i', 'o', 'n'],
    ['/', 'F', 'l', 'e', 'x', 'r', 'a', 'y', 'C', 'o', 'n', 't', 'r', 'o', 'l', 'l', 'e', 'r', 's', '/', 'T', 'x', 'B', 'u', 'f', 'f', 'e', 'r', 'C', 'o', 'n', 'f', 'i', 'g', 'u', 'r', 'a', 't', 'i', 'o', 'n', 's', '/', 's', 'l', 'o', 't', 'I', 'd'],
    ['/', 'F', 'l', 'e', 'x', 'R', 'a', 'y', 'C', 'o', 'n', 't', 'r', 'o', 'l', 'l', 'e', 'r', 's', '/', 'T', 'x', 'B', 'u', 'f', 'f', 'e', 'r', 'C', 'o', 'n', 'f', 'i', 'g', 'u', 'r', 'a', 't', 'i', 'o', 'n', 's', '/', 's', 'l', 'o', 't', 'I', 'd'],
    ['/', 'F', 'l', 'e', 'x', 'r', 'a', 'y', 'C', 'o', 'n', 't', 'r', 'o', 'l', 'l', 'e', 'r', 's', '/', 'T', 'x', 'B', 'u', 'f', 'f', 'e', 'r', 'C', 'o', 'n', 'f', 'i', 'g', 'u', 'r', 'a', 't', 'i', 'o', 'n', 's', '/', 't', 'r', 'a', 'n', 's', 'm', 'i', 's', 's', 'i', 'o', 'n', 'M', 'o', 'd', 'e'],
    ['/', 'F', 'l', 'e', 'x', 'R', 'a', 'y', 'C', 'o', 'n', 't', 'r', 'o', 'l', 'l', 'e', 'r', 's', '/', 'T', 'x', 'B', 'u', 'f', 'f', 'e', 'r', 'C', 'o', 'n', 'f', 'i', 'g', 'u', 'r', 'a', 't', 'i', 'o', 'n', 's', '/', 't', 'r', 'a', 'n', 's', 'm', 'i', 's', 's', 'i', 'o', 'n', 'M', 'o', 'd', 'e'],
    ['/', 'F', 'l', 'e', 'x', 'r', 'a', 'y', 'C', 'o', 'n', 't', 'r', 'o', 'l', 'l', 'e', 'r', 's', '/', 'U', 's', 'e', 'T', 'r', 'a', 'c', 'e', 'S', 'i', 'n', 'k', 's'],
    ['/', 'F', 'l', 'e', 'x', 'R', 'a', 'y', 'C', 'o', 'n', 't', 'r', 'o', 'l', 'l', 'e', 'r', 's', '/', 'U', 's', 'e', 'T', 'r', 'a', 'c', 'e', 'S', 'i', 'n', 'k', 's'],
    ['/', 'H', 'e', 'a', 'l', 't', 'h', 'C', 'h', 'e', 'c', 'k'],
    ['/', 'H', 'e', 'a', 'l', 't', 'h', 'C', 'h', 'e', 'c', 'k', '/', 'H', 'a', 'r', 'd', 'R', 'e', 's', 'p', 'o', 'n', 's', 'e', 'T', 'i', 'm', 'e', 'o', 'u', 't'],
    ['/', 'H', 'e', 'a', 'l', 't', 'h', 'C', 'h', 'e', 'c', 'k', '/', 'S', 'o', 'f', 't', 'R', 'e', 's', 'p', 'o', 'n', 's', 'e', 'T', 'i', 'm', 'e', 'o', 'u', 't'],
    ['/', 'I', 'n', 'c', 'l', 'u', 'd', 'e', 's'],
    ['/', 'I', 'n', 'c', 'l', 'u', 'd', 'e', 's', '/', 'F', 'i', 'l', 'e', 's'],
    ['/', 'I', 'n', 'c', 'l', 'u', 'd', 'e', 's', '/', 'S', 'e', 'a', 'r', 'c', 'h', 'P', 'a', 't', 'h', 'H', 'i', 'n', 't', 's'],
    ['/', 'L', 'i', 'n', 'C', 'o', 'n', 't', 'r', 'o', 'l', 'l', 'e', 'r', 's'],
    ['/', 'L', 'i', 'n', 'C', 'o', 'n', 't', 'r', 'o', 'l', 'l', 'e', 'r', 's', '/', 'N', 'a', 'm', 'e'],
    ['/', 'L', 'i', 'n', 'C', 'o', 'n', 't', 'r', 'o', 'l', 'l', 'e', 'r', 's', '/', 'N', 'e', 't', 'w', 'o', 'r', 'k'],
    ['/', 'L', 'i', 'n', 'C', 'o', 'n', 't', 'r', 'o', 'l', 'l', 'e', 'r', 's', '/', 'R', 'e', 'p', 'l', 'a', 'y'],
    ['/', 'L', 'i', 'n', 'C', 'o', 'n', 't', 'r', 'o', 'l', 'l', 'e', 'r', 's', '/', 'R', 'e', 'p', 'l', 'a', 'y', '/', 'D', 'i', 'r', 'e', 'c', 't', 'i', 'o', 'n'],
    ['/', 'L', 'i', 'n', 'C', 'o', 'n', 't', 'r', 'o', 'l', 'l', 'e', 'r', 's', '/', 'R', 'e', 'p', 'l', 'a', 'y', '/', 'M', 'd', 'f', 'C', 'h', 'a', 'n', 'n', 'e', 'l'],
    ['/', 'L', 'i', 'n', 'C', 'o', 'n', 't', 'r', 'o', 'l', 'l', 'e', 'r', 's', '/', 'R', 'e', 'p', 'l', 'a', 'y', '/', 'M', 'd', 'f', 'C', 'h', 'a', 'n', 'n', 'e', 'l', '/', 'C', 'h', 'a', 'n', 'n', 'e', 'l', 'N', 'a', 'm', 'e'],
    ['/', 'L', 'i', 'n', 'C', 'o', 'n', 't', 'r', 'o', 'l', 'l', 'e', 'r', 's', '/', 'R', 'e', 'p', 'l', 'a', 'y', '/', 'M', 'd', 'f', 'C', 'h', 'a', 'n', 'n', 'e', 'l', '/', 'C', 'h', 'a', 'n', 'n', 'e', 'l', 'P', 'a', 't', 'h'],
    ['/', 'L', 'i', 'n', 'C', 'o', 'n', 't', 'r', 'o', 'l', 'l', 'e', 'r', 's', '/', 'R', 'e', 'p', 'l', 'a', 'y', '/', 'M', 'd', 'f', 'C', 'h', 'a', 'n', 'n', 'e', 'l', '/', 'C', 'h', 'a', 'n', 'n', 'e', 'l', 'S', 'o', 'u', 'r', 'c', 'e'],
    ['/', 'L', 'i', 'n', 'C', 'o', 'n', 't', 'r', 'o', 'l', 'l', 'e', 'r', 's', '/', 'R', 'e', 'p', 'l', 'a', 'y', '/', 'M', 'd', 'f', 'C', 'h', 'a', 'n', 'n', 'e', 'l', '/', 'G', 'r', 'o', 'u', 'p', 'N', 'a', 'm', 'e'],
    ['/', 'L', 'i', 'n', 'C', 'o', 'n', 't', 'r', 'o', 'l', 'l', 'e', 'r', 's', '/', 'R', 'e', 'p', 'l', 'a', 'y', '/', 'M', 'd', 'f', 'C', 'h', 'a', 'n', 'n', 'e', 'l', '/', 'G', 'r', 'o', 'u', 'p', 'P', 'a', 't', 'h'],
    ['/', 'L', 'i', 'n', 'C', 'o', 'n', 't', 'r', 'o', 'l', 'l', 'e', 'r', 's', '/', 'R', 'e', 'p', 'l', 'a', 'y', '/', 'M', 'd', 'f', 'C', 'h', 'a', 'n', 'n', 'e', 'l', '/', 'G', 'r', 'o', 'u', 'p', 'S', 'o', 'u', 'r', 'c', 'e'],
    ['/', 'L', 'i', 'n', 'C', 'o', 'n', 't', 'r', 'o', 'l', 'l', 'e', 'r', 's', '/', 'R', 'e', 'p', 'l', 'a', 'y', '/', 'U', 's', 'e', 'T', 'r', 'a', 'c', 'e', 'S', 'o', 'u', 'r', 'c', 'e'],
    ['/', 'L', 'i', 'n', 'C', 'o', 'n', 't', 'r', 'o', 'l', 'l', 'e', 'r', 's', '/', 'U', 's', 'e', 'T', 'r', 'a', 'c', 'e', 'S', 'i', 'n', 'k', 's'],
    ['/', 'L', 'o', 'g', 'g', 'i', 'n', 'g'],
    ['/', 'L', 'o', 'g', 'g', 'i', 'n', 'g', '/', 'F', 'l', 'u', 's', 'h', 'L', 'e', 'v', 'e', 'l'],
    ['/', 'L', 'o', 'g', 'g', 'i', 'n', 'g', '/', 'L', 'o', 'g', 'F', 'r', 'o', 'm', 'R', 'e', 'm', 'o', 't', 'e', 's'],
    ['/', 'L', 'o', 'g', 'g', 'i', 'n', 'g', '/', 'S', 'i', 'n', 'k', 's'],
    ['/', 'L', 'o', 'g', 'g', 'i', 'n', 'g', '/', 'S', 'i', 'n', 'k', 's', '/', 'F', 'o', 'r', 'm', 'a', 't'],
    ['/', 'L', 'o', 'g', 'g', 'i', 'n', 'g', '/', 'S', 'i', 'n', 'k', 's', '/', 'L', 'e', 'v', 'e', 'l'],
    ['/', 'L', 'o', 'g', 'g', 'i', 'n', 'g', '/', 'S', 'i', 'n', 'k', 's', '/', 'L', 'o', 'g', 'N', 'a', 'm', 'e'],
    ['/', 'L', 'o', 'g', 'g', 'i', 'n', 'g', '/', 'S', 'i', 'n', 'k', 's', '/', 'T', 'y', 'p', 'e'],
    ['/', 'L', 'o', 'g', 'g', 'i', 'n', 'g', '/', 'S', 'i', 'n', 'k', 's', '/', 'E', 'x', 'p', 'e', 'r', 'i', 'm', 'e', 'n', 't', 'a', 'l'],
    ['/', 'L', 'o', 'g', 'g', 'i', 'n', 'g', '/', 'S', 'i', 'n', 'k', 's', '/', 'E', 'x', 'p', 'e', 'r', 'i', 'm', 'e', 'n', 't', 'a', 'l', '/', 'E', 'n', 'a', 'b', 'l', 'e', 'd', 'T', 'o', 'p', 'i', 'c', 's'],
    ['/', 'L', 'o', 'g', 'g', 'i', 'n', 'g', '/', 'S', 'i', 'n', 'k', 's', '/', 'E', 'x', 'p', 'e', 'r', 'i', 'm', 'e', 'n', 't', 'a', 'l', '/', 'D', 'i', 's', 'a', 'b', 'l', 'e', 'd', 'T', 'o', 'p', 'i', 'c', 's'],
    ['/', 'M', 'i', 'd', 'd', 'l', 'e', 'w', 'a', 'r', 'e'],
    ['/', 'M', 'i', 'd', 'd', 'l', 'e', 'w', 'a', 'r', 'e', '/', 'A', 'c', 'c', 'e', 'p', 't', 'o', 'r', 'U', 'r', 'i', 's'],
    ['/', 'M', 'i', 'd', 'd', 'l', 'e', 'w', 'a', 'r', 'e', '/', 'C', 'o', 'n', 'n', 'e', 'c', 't', 'A', 't', 't', 'e', 'm', 'p', 't', 's'],
    ['/', 'M', 'i', 'd', 'd', 'l', 'e', 'w', 'a', 'r', 'e', '/', 'C', 'o', 'n', 'n', 'e', 'c', 't', 'T', 'i', 'm', 'e', 'o', 'u', 't', 'S', 'e', 'c', 'o', 'n', 'd', 's'],
    ['/', 'M', 'i', 'd', 'd', 'l', 'e', 'w', 'a', 'r', 'e', '/', 'E', 'n', 'a', 'b', 'l', 'e', 'D', 'o', 'm', 'a', 'i', 'n', 'S', 'o', 'c', 'k', 'e', 't', 's'],
    ['/', 'M', 'i', 'd', 'd', 'l', 'e', 'w', 'a', 'r', 'e', '/', 'E', 'x', 'p', 'e', 'r', 'i', 'm', 'e', 'n', 't', 'a', 'l', 'R', 'e', 'm', 'o', 't', 'e', 'P', 'a', 'r', 't', 'i', 'c', 'i', 'p', 'a', 'n', 't', 'C', 'o', 'n', 'n', 'e', 'c', 't', 'i', 'o', 'n'],
    ['/', 'M', 'i', 'd', 'd', 'l', 'e', 'w', 'a', 'r', 'e', '/', 'R', 'e', 'g', 'i', 's', 't', 'r', 'y', 'A', 's', 'F', 'a', 'l', 'l', 'b', 'a', 'c', 'k', 'P', 'r', 'o', 'x', 'y'],
    ['/', 'M', 'i', 'd', 'd', 'l', 'e', 'w', 'a', 'r', 'e', '/', 'R', 'e', 'g', 'i', 's', 't', 'r', 'y', 'U', 'r', 'i'],
    ['/', 'M', 'i', 'd', 'd', 'l', 'e', 'w', 'a', 'r', 'e', '/', 'T', 'c', 'p', 'N', 'o', 'D', 'e', 'l', 'a', 'y'],
    ['/', 'M', 'i', 'd', 'd', 'l', 'e', 'w', 'a', 'r', 'e', '/', 'T', 'c', 'p', 'Q', 'u', 'i', 'c', 'k', 'A', 'c', 'k'],
    ['/', 'M', 'i', 'd', 'd', 'l', 'e', 'w', 'a', 'r', 'e', '/', 'T', 'c', 'p', 'R', 'e', 'c', 'e', 'i', 'v', 'e', 'B', 'u', 'f', 'f', 'e', 'r', 'S', 'i', 'z', 'e'],
    ['/', 'M', 'i', 'd', 'd', 'l', 'e', 'w', 'a', 'r', 'e', '/', 'T', 'c', 'p', 'S', 'e', 'n', 'd', 'B', 'u', 'f', 'f', 'e', 'r', 'S', 'i', 'z', 'e'],
    ['/', 'P', 'a', 'r', 't', 'i', 'c', 'i', 'p', 'a', 'n', 't', 'N', 'a', 'm', 'e'],
    ['/', 'R', 'p', 'c', 'C', 'l', 'i', 'e', 'n', 't', 's'],
    ['/', 'R', 'p', 'c', 'C', 'l', 'i', 'e', 'n', 't', 's', '/', 'C', 'h', 'a', 'n', 'n', 'e', 'l'],
    ['/', 'R', 'p', 'c', 'C', 'l', 'i', 'e', 'n', 't', 's', '/', 'F', 'u', 'n', 'c', 't', 'i', 'o', 'n', 'N', 'a', 'm', 'e'],
    ['/', 'R', 'p', 'c', 'C', 'l', 'i', 'e', 'n', 't', 's', '/', 'R', 'p', 'c', 'C', 'h', 'a', 'n', 'n', 'e', 'l'],
    ['/', 'R', 'p', 'c', 'C', 'l', 'i', 'e', 'n', 't', 's', '/', 'L', 'a', 'b', 'e', 'l', 's'],
    ['/', 'R', 'p', 'c', 'C', 'l', 'i', 'e', 'n', 't', 's', '/', 'L', 'a', 'b', 'e', 'l', 's', '/', 'K', 'e', 'y'],
    ['/', 'R', 'p', 'c', 'C', 'l', 'i', 'e', 'n', 't', 's', '/', 'L', 'a', 'b', 'e', 'l', 's', '/', 'K', 'i', 'n', 'd'],
    ['/', 'R', 'p', 'c', 'C', 'l', 'i', 'e', 'n', 't', 's', '/', 'L', 'a', 'b', 'e', 'l', 's', '/', 'V', 'a', 'l', 'u', 'e'],
    ['/', 'R', 'p', 'c', 'C', 'l', 'i', 'e', 'n', 't', 's', '/', 'N', 'a', 'm', 'e'],
    ['/', 'R', 'p', 'c', 'C', 'l', 'i', 'e', 'n', 't', 's', '/', 'R', 'e', 'p', 'l', 'a', 'y'],
    ['/', 'R', 'p', 'c', 'C', 'l', 'i', 'e', 'n', 't', 's', '/', 'R', 'e', 'p', 'l', 'a', 'y', '/', 'D', 'i', 'r', 'e', 'c', 't', 'i', 'o', 'n'],
    ['/', 'R', 'p', 'c', 'C', 'l', 'i', 'e', 'n', 't', 's', '/', 'R', 'e', 'p', 'l', 'a', 'y', '/', 'M', 'd', 'f', 'C', 'h', 'a', 'n', 'n', 'e', 'l'],
    ['/', 'R', 'p', 'c', 'C', 'l', 'i', 'e', 'n', 't', 's', '/', 'R', 'e', 'p', 'l', 'a', 'y', '/', 'M', 'd', 'f', 'C', 'h', 'a', 'n', 'n', 'e', 'l', '/', 'C', 'h', 'a', 'n', 'n', 'e', 'l', 'N', 'a', 'm', 'e'],
    ['/', 'R', 'p', 'c', 'C', 'l', 'i', 'e', 'n', 't', 's', '/', 'R', 'e', 'p', 'l', 'a', 'y', '/', 'M', 'd', 'f', 'C', 'h', 'a', 'n', 'n', 'e', 'l', '/', 'C', 'h', 'a', 'n', 'n', 'e', 'l', 'P', 'a', 't', 'h'],
    ['/', 'R', 'p', 'c', 'C', 'l', 'i', 'e', 'n', 't', 's', '/', 'R', 'e', 'p', 'l', 'a', 'y', '/', 'M', 'd', 'f', 'C', 'h', 'a', 'n', 'n', 'e', 'l', '/', 'C', 'h', 'a', 'n', 'n', 'e', 'l', 'S', 'o', 'u', 'r', 'c', 'e'],
    ['/', 'R', 'p', 'c', 'C', 'l', 'i', 'e', 'n', 't', 's', '/', 'R', 'e', 'p', 'l', 'a', 'y', '/', 'M', 'd', 'f', 'C', 'h', 'a', 'n', 'n', 'e', 'l', '/', 'G', 'r', 'o', 'u', 'p', 'N', 'a', 'm', 'e'],
    ['/', 'R', 'p', 'c', 'C', 'l', 'i', 'e', 'n', 't', 's', '/', 'R', 'e', 'p', 'l', 'a', 'y', '/', 'M', 'd', 'f', 'C', 'h', 'a', 'n', 'n', 'e', 'l', '/', 'G', 'r', 'o', 'u', 'p', 'P', 'a', 't', 'h'],
    ['/', 'R', 'p', 'c', 'C', 'l', 'i', 'e', 'n', 't', 's', '/', 'R', 'e', 'p', 'l', 'a', 'y', '/', 'M', 'd', 'f', 'C', 'h', 'a', 'n', 'n', 'e', 'l', '/', 'G', 'r', 'o', 'u', 'p', 'S', 'o', 'u', 'r', 'c', 'e'],
    ['/', 'R', 'p', 'c', 'C', 'l', 'i', 'e', 'n', 't', 's', '/', 'R', 'e', 'p', 'l', 'a', 'y', '/', 'U', 's', 'e', 'T', 'r', 'a', 'c', 'e', 'S', 'o', 'u', 'r', 'c', 'e'],
    ['/', 'R', 'p', 'c', 'C', 'l', 'i', 'e', 'n', 't', 's', '/', 'U', 's', 'e', 'T', 'r', 'a', 'c', 'e', 'S', 'i', 'n', 'k', 's'],
    ['/', 'R', 'p', 'c', 'S', 'e', 'r', 'v', 'e', 'r', 's'],
    ['/', 'R', 'p', 'c', 'S', 'e', 'r', 'v', 'e', 'r', 's', '/', 'C', 'h', 'a', 'n', 'n', 'e', 'l'],
    ['/', 'R', 'p', 'c', 'S', 'e', 'r', 'v', 'e', 'r', 's', '/', 'F', 'u', 'n', 'c', 't', 'i', 'o', 'n', 'N', 'a', 'm', 'e'],
    ['/', 'R', 'p', 'c', 'S', 'e', 'r', 'v', 'e', 'r', 's', '/', 'R', 'p', 'c', 'C', 'h', 'a', 'n', 'n', 'e', 'l'],
    ['/', 'R', 'p', 'c', 'S', 'e', 'r', 'v', 'e', 'r', 's', '/', 'L', 'a', 'b', 'e', 'l', 's'],
    ['/', 'R', 'p', 'c', 'S', 'e', 'r', 'v', 'e', 'r', 's', '/', 'L', 'a', 'b', 'e', 'l', 's', '/', 'K', 'e', 'y'],
    ['/', 'R', 'p', 'c', 'S', 'e', 'r', 'v', 'e', 'r', 's', '/', 'L', 'a', 'b', 'e', 'l', 's', '/', 'K', 'i', 'n', 'd'],
    ['/', 'R', 'p', 'c', 'S', 'e', 'r', 'v', 'e', 'r', 's', '/', 'L', 'a', 'b', 'e', 'l', 's', '/', 'V', 'a', 'l', 'u', 'e'],
    ['/', 'R', 'p', 'c', 'S', 'e', 'r', 'v', 'e', 'r', 's', '/', 'N', 'a', 'm', 'e'],
    ['/', 'R', 'p', 'c', 'S', 'e', 'r', 'v', 'e', 'r', 's', '/', 'R', 'e', 'p', 'l', 'a', 'y'],
    ['/', 'R', 'p', 'c', 'S', 'e', 'r', 'v', 'e', 'r', 's', '/', 'R', 'e', 'p', 'l', 'a', 'y', '/', 'D', 'i', 'r', 'e', 'c', 't', 'i', 'o', 'n'],
    ['/', 'R', 'p', 'c', 'S', 'e', 'r', 'v', 'e', 'r', 's', '/', 'R', 'e', 'p', 'l', 'a', 'y', '/', 'M', 'd', 'f', 'C', 'h', 'a', 'n', 'n', 'e', 'l'],
    ['/', 'R', 'p', 'c', 'S', 'e', 'r', 'v', 'e', 'r', 's', '/', 'R', 'e', 'p', 'l', 'a', 'y', '/', 'M', 'd', 'f', 'C', 'h', 'a', 'n', 'n', 'e', 'l', '/', 'C', 'h', 'a', 'n', 'n', 'e', 'l', 'N', 'a', 'm', 'e'],
    ['/', 'R', 'p', 'c', 'S', 'e', 'r', 'v', 'e', 'r', 's', '/', 'R', 'e', 'p', 'l', 'a', 'y', '/', 'M', 'd', 'f', 'C', 'h', 'a', 'n', 'n', 'e', 'l', '/', 'C', 'h', 'a', 'n', 'n', 'e', 'l', 'P', 'a', 't', 'h'],
    ['/', 'R', 'p', 'c', 'S', 'e', 'r', 'v', 'e', 'r', 's', '/', 'R', 'e', 'p', 'l', 'a', 'y', '/', 'M', 'd', 'f', 'C', 'h', 'a', 'n', 'n', 'e', 'l', '/', 'C', 'h', 'a', 'n', 'n', 'e', 'l', 'S', 'o', 'u', 'r', 'c', 'e'],
    ['/', 'R', 'p', 'c', 'S', 'e', 'r', 'v', 'e', 'r', 's', '/', 'R', 'e', 'p', 'l', 'a', 'y', '/', 'M', 'd', 'f', 'C', 'h', 'a', 'n', 'n', 'e', 'l', '/', 'G', 'r', 'o', 'u', 'p', 'N', 'a', 'm', 'e'],
    ['/', 'R', 'p', 'c', 'S', 'e', 'r', 'v', 'e', 'r', 's', '/', 'R', 'e', 'p', 'l', 'a', 'y', '/', 'M', 'd', 'f', 'C', 'h', 'a', 'n', 'n', 'e', 'l', '/', 'G', 'r', 'o', 'u', 'p', 'P', 'a', 't', 'h'],
    ['/', 'R', 'p', 'c', 'S', 'e', 'r', 'v', 'e', 'r', 's', '/', 'R', 'e', 'p', 'l', 'a', 'y', '/', 'M', 'd', 'f', 'C', 'h', 'a', 'n', 'n', 'e', 'l', '/', 'G', 'r', 'o', 'u', 'p', 'S', 'o', 'u', 'r', 'c', 'e'],
    ['/', 'R', 'p', 'c', 'S', 'e', 'r', 'v', 'e', 'r', 's', '/', 'R', 'e', 'p', 'l', 'a', 'y', '/', 'U', 's', 'e', 'T', 'r', 'a', 'c', 'e', 'S', 'o', 'u', 'r', 'c', 'e'],
    ['/', 'R', 'p', 'c', 'S', 'e', 'r', 'v', 'e', 'r', 's', '/', 'U', 's', 'e', 'T', 'r', 'a', 'c', 'e', 'S', 'i', 'n', 'k', 's'],
    ['/', 's', 'c', 'h', 'e', 'm', 'a', 'V', 'e', 'r', 's', 'i', 'o', 'n'],
    ['/', 'S', 'c', 'h', 'e', 'm', 'a', 'V', 'e', 'r', 's', 'i', 'o', 'n'],
    ['/', 'T', 'r', 'a', 'c', 'i', 'n', 'g'],
    ['/', 'T', 'r', 'a', 'c', 'i', 'n', 'g', '/', 'T', 'r', 'a', 'c', 'e', 'S', 'i', 'n', 'k', 's'],
    ['/', 'T', 'r', 'a', 'c', 'i', 'n', 'g', '/', 'T', 'r', 'a', 'c', 'e', 'S', 'i', 'n', 'k', 's', '/', 'N', 'a', 'm', 'e'],
    ['/', 'T', 'r', 'a', 'c', 'i', 'n', 'g', '/', 'T', 'r', 'a', 'c', 'e', 'S', 'i', 'n', 'k', 's', '/', 'O', 'u', 't', 'p', 'u', 't', 'P', 'a', 't', 'h'],
    ['/', 'T', 'r', 'a', 'c', 'i', 'n', 'g', '/', 'T', 'r', 'a', 'c', 'e', 'S', 'i', 'n', 'k', 's', '/', 'T', 'y', 'p', 'e'],
    ['/', 'T', 'r', 'a', 'c', 'i', 'n', 'g', '/', 'T', 'r', 'a', 'c', 'e', 'S', 'o', 'u', 'r', 'c', 'e', 's'],
    ['/', 'T', 'r', 'a', 'c', 'i', 'n', 'g', '/', 'T', 'r', 'a', 'c', 'e', 'S', 'o', 'u', 'r', 'c', 'e', 's', '/', 'I', 'n', 'p', 'u', 't', 'P', 'a', 't', 'h'],
    ['/', 'T', 'r', 'a', 'c', 'i', 'n', 'g', '/', 'T', 'r', 'a', 'c', 'e', 'S', 'o', 'u', 'r', 'c', 'e', 's', '/', 'N', 'a', 'm', 'e'],
    ['/', 'T', 'r', 'a', 'c', 'i', 'n', 'g', '/', 'T', 'r', 'a', 'c', 'e', 'S', 'o', 'u', 'r', 'c', 'e', 's', '/', 'T', 'y', 'p', 'e']]

theorem schemaChars_eq : schemaPaths = schemaChars.map String.ofList := rfl

theorem mem_schemaChars (p : String) : p ∈ schemaPaths ↔ p.toList ∈ schemaChars := by
  rw [schemaChars_eq, List.mem_map]
  constructor
  · rintro ⟨l, hl, rfl⟩; simpa using hl
  · intro h; exact ⟨p.toList, h, by simp⟩

theorem reserved_chars (n : List Char) : ReservedName n ↔ n ∈ schemaChars.flatMap (splitChars []) := by
  rw [List.mem_flatMap]
  constructor
  · rintro ⟨p, hp, parts, hparts, hn⟩
    exact ⟨p.toList, (mem_schemaChars p).1 hp, (parts_unique hparts) ▸ hn⟩
  · rintro ⟨l, hl, hn⟩
    refine ⟨String.ofList l, (mem_schemaChars _).2 (by simpa using hl), _, parts_splitChars _, by simpa using hn⟩

theorem isReserved_chars (p : String) : isReserved p = decide ((p.toList.reverse.takeWhile (· ≠ '/')).reverse ∈ schemaChars.flatMap (splitChars [])) := by
  unfold isReserved elementName
  rw [decide_eq_decide, mem_reservedNames, reserved_chars]

theorem isSchemaPath_chars (p : String) : isSchemaPath p = decide (p.toList ∈ schemaChars) := by
  unfold isSchemaPath
  rw [decide_eq_decide, mem_schemaChars]

end SilKit.ConfigText
