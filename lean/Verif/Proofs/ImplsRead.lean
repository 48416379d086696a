import Verif.Spec.Impls

/-!
# The impls in the emitted code

As they are read off the tokens; that these are all is proved in `Proofs/ImplsAny.lean` and `Proofs/ImplsUnits.lean`. `E` stands for the name of the enum, `n` for the number of variants, `ty` for
the integer type of a bitset.
-/

set_option autoImplicit false

namespace FixedMap.Impls

open FixedMap.Emit (Toks)

namespace Any

def mapStorage_MapStorage (E : Toks) : Impl := ⟨quote! "< V > :: fixed_map :: map :: MapStorage < #E , V > for __MapStorage < V >", [quote! "type Iter < 'a > = __MapStorageIter < 'a , V > where V : 'a",
  quote! "fn iter ( & self ) -> Self :: Iter < '_ >",
  quote! "type Keys < 'a > = __MapStorageKeys < 'a , V > where V : 'a",
  quote! "fn keys ( & self ) -> Self :: Keys < '_ >",
  quote! "type Values < 'a > = __MapStorageValues < 'a , V > where V : 'a",
  quote! "fn values ( & self ) -> Self :: Values < '_ >",
  quote! "type IterMut < 'a > = __MapStorageIterMut < 'a , V > where V : 'a",
  quote! "fn iter_mut ( & mut self ) -> Self :: IterMut < '_ >",
  quote! "type ValuesMut < 'a > = __MapStorageValuesMut < 'a , V > where V : 'a",
  quote! "fn values_mut ( & mut self ) -> Self :: ValuesMut < '_ >",
  quote! "type IntoIter = __MapStorageIntoIter < V >",
  quote! "fn into_iter ( self ) -> Self :: IntoIter",
  quote! "type Occupied < 'a > = OccupiedEntry < 'a , V > where V : 'a",
  quote! "type Vacant < 'a > = VacantEntry < 'a , V > where V : 'a",
  quote! "fn entry ( & mut self , key : #E ) -> :: fixed_map :: map :: Entry < '_ , Self , #E , V >",
  quote! "fn empty ( ) -> Self",
  quote! "fn insert ( & mut self , key : #E , value : V ) -> :: core :: option :: Option < V >",
  quote! "fn len ( & self ) -> usize",
  quote! "fn is_empty ( & self ) -> bool",
  quote! "fn contains_key ( & self , value : #E ) -> bool",
  quote! "fn get ( & self , value : #E ) -> :: core :: option :: Option < & V >",
  quote! "fn get_mut ( & mut self , value : #E ) -> :: core :: option :: Option < & mut V >",
  quote! "fn remove ( & mut self , value : #E ) -> :: core :: option :: Option < V >",
  quote! "fn retain < F > ( & mut self , mut func : F ) where F : FnMut ( #E , & mut V ) -> bool",
  quote! "fn clear ( & mut self )"]⟩

def clone_MapStorageIter : Impl := ⟨quote! "< 'a , V > :: core :: clone :: Clone for __MapStorageIter < 'a , V >", [quote! "fn clone ( & self ) -> Self"]⟩

def iterator_MapStorageIter (E : Toks) : Impl := ⟨quote! "< 'a , V > :: core :: iter :: Iterator for __MapStorageIter < 'a , V >", [quote! "type Item = ( #E , & 'a V )",
  quote! "fn next ( & mut self ) -> :: core :: option :: Option < Self :: Item >"]⟩

def doubleEndedIterator_MapStorageIter : Impl := ⟨quote! "< 'a , V > :: core :: iter :: DoubleEndedIterator for __MapStorageIter < 'a , V >", [quote! "fn next_back ( & mut self ) -> :: core :: option :: Option < Self :: Item >"]⟩

def clone_MapStorageKeys : Impl := ⟨quote! "< 'a , V > :: core :: clone :: Clone for __MapStorageKeys < 'a , V >", [quote! "fn clone ( & self ) -> Self"]⟩

def iterator_MapStorageKeys (E : Toks) : Impl := ⟨quote! "< 'a , V > :: core :: iter :: Iterator for __MapStorageKeys < 'a , V >", [quote! "type Item = #E",
  quote! "fn next ( & mut self ) -> :: core :: option :: Option < Self :: Item >"]⟩

def doubleEndedIterator_MapStorageKeys : Impl := ⟨quote! "< 'a , V > :: core :: iter :: DoubleEndedIterator for __MapStorageKeys < 'a , V >", [quote! "fn next_back ( & mut self ) -> :: core :: option :: Option < Self :: Item >"]⟩

def clone_MapStorageValues : Impl := ⟨quote! "< 'a , V > :: core :: clone :: Clone for __MapStorageValues < 'a , V >", [quote! "fn clone ( & self ) -> Self"]⟩

def iterator_MapStorageValues : Impl := ⟨quote! "< 'a , V > :: core :: iter :: Iterator for __MapStorageValues < 'a , V >", [quote! "type Item = & 'a V",
  quote! "fn next ( & mut self ) -> :: core :: option :: Option < Self :: Item >"]⟩

def doubleEndedIterator_MapStorageValues : Impl := ⟨quote! "< 'a , V > :: core :: iter :: DoubleEndedIterator for __MapStorageValues < 'a , V >", [quote! "fn next_back ( & mut self ) -> :: core :: option :: Option < Self :: Item >"]⟩

def iterator_MapStorageIterMut (E : Toks) : Impl := ⟨quote! "< 'a , V > :: core :: iter :: Iterator for __MapStorageIterMut < 'a , V >", [quote! "type Item = ( #E , & 'a mut V )",
  quote! "fn next ( & mut self ) -> :: core :: option :: Option < Self :: Item >"]⟩

def doubleEndedIterator_MapStorageIterMut : Impl := ⟨quote! "< 'a , V > :: core :: iter :: DoubleEndedIterator for __MapStorageIterMut < 'a , V >", [quote! "fn next_back ( & mut self ) -> :: core :: option :: Option < Self :: Item >"]⟩

def iterator_MapStorageValuesMut : Impl := ⟨quote! "< 'a , V > :: core :: iter :: Iterator for __MapStorageValuesMut < 'a , V >", [quote! "type Item = & 'a mut V",
  quote! "fn next ( & mut self ) -> :: core :: option :: Option < Self :: Item >"]⟩

def doubleEndedIterator_MapStorageValuesMut : Impl := ⟨quote! "< 'a , V > :: core :: iter :: DoubleEndedIterator for __MapStorageValuesMut < 'a , V >", [quote! "fn next_back ( & mut self ) -> :: core :: option :: Option < Self :: Item >"]⟩

def clone_MapStorageIntoIter : Impl := ⟨quote! "< V > :: core :: clone :: Clone for __MapStorageIntoIter < V >", [quote! "fn clone ( & self ) -> Self"]⟩

def iterator_MapStorageIntoIter (E : Toks) : Impl := ⟨quote! "< V > :: core :: iter :: Iterator for __MapStorageIntoIter < V >", [quote! "type Item = ( #E , V )",
  quote! "fn next ( & mut self ) -> Option < Self :: Item >"]⟩

def doubleEndedIterator_MapStorageIntoIter : Impl := ⟨quote! "< V > :: core :: iter :: DoubleEndedIterator for __MapStorageIntoIter < V >", [quote! "fn next_back ( & mut self ) -> :: core :: option :: Option < Self :: Item >"]⟩

def simpleVacantEntry : Impl := ⟨quote! "< 'a , V > SimpleVacantEntry < 'a , V >", [quote! "fn insert ( self , value : V ) -> & 'a mut V"]⟩

def simpleOccupiedEntry : Impl := ⟨quote! "< 'a , V > SimpleOccupiedEntry < 'a , V >", [quote! "fn get ( & self ) -> & V",
  quote! "fn get_mut ( & mut self ) -> & mut V",
  quote! "fn into_mut ( self ) -> & 'a mut V",
  quote! "fn insert ( & mut self , value : V ) -> V",
  quote! "fn remove ( self ) -> V"]⟩

def vacantEntry_VacantEntry (E : Toks) : Impl := ⟨quote! "< 'a , V > :: fixed_map :: map :: VacantEntry < 'a , #E , V > for VacantEntry < 'a , V >", [quote! "fn key ( & self ) -> #E",
  quote! "fn insert ( self , value : V ) -> & 'a mut V"]⟩

def occupiedEntry_OccupiedEntry (E : Toks) : Impl := ⟨quote! "< 'a , V > :: fixed_map :: map :: OccupiedEntry < 'a , #E , V > for OccupiedEntry < 'a , V >", [quote! "fn key ( & self ) -> #E",
  quote! "fn get ( & self ) -> & V",
  quote! "fn get_mut ( & mut self ) -> & mut V",
  quote! "fn into_mut ( self ) -> & 'a mut V",
  quote! "fn insert ( & mut self , value : V ) -> V",
  quote! "fn remove ( self ) -> V"]⟩

def partialEq_MapStorage : Impl := ⟨quote! "< V > :: core :: cmp :: PartialEq for __MapStorage < V >", [quote! "fn eq ( & self , other : & Self ) -> bool"]⟩

def eq_MapStorage : Impl := ⟨quote! "< V > :: core :: cmp :: Eq for __MapStorage < V >", []⟩

def clone_MapStorage : Impl := ⟨quote! "< V > :: core :: clone :: Clone for __MapStorage < V >", [quote! "fn clone ( & self ) -> Self"]⟩

def copy_MapStorage : Impl := ⟨quote! "< V > :: core :: marker :: Copy for __MapStorage < V >", []⟩

def setStorage_SetStorage (E : Toks) : Impl := ⟨quote! ":: fixed_map :: set :: SetStorage < #E > for __SetStorage", [quote! "type Iter < 'a > = __SetStorageIter < 'a >",
  quote! "fn iter ( & self ) -> Self :: Iter < '_ >",
  quote! "type IntoIter = __SetStorageIntoIter",
  quote! "fn into_iter ( self ) -> Self :: IntoIter",
  quote! "fn empty ( ) -> Self",
  quote! "fn insert ( & mut self , key : #E ) -> bool",
  quote! "fn len ( & self ) -> usize",
  quote! "fn is_empty ( & self ) -> bool",
  quote! "fn contains ( & self , value : #E ) -> bool",
  quote! "fn remove ( & mut self , value : #E ) -> bool",
  quote! "fn retain < F > ( & mut self , mut func : F ) where F : FnMut ( #E ) -> bool",
  quote! "fn clear ( & mut self )"]⟩

def clone_SetStorageIter : Impl := ⟨quote! "< 'a > :: core :: clone :: Clone for __SetStorageIter < 'a >", [quote! "fn clone ( & self ) -> Self"]⟩

def iterator_SetStorageIter (E : Toks) : Impl := ⟨quote! "< 'a > :: core :: iter :: Iterator for __SetStorageIter < 'a >", [quote! "type Item = #E",
  quote! "fn next ( & mut self ) -> :: core :: option :: Option < Self :: Item >"]⟩

def doubleEndedIterator_SetStorageIter : Impl := ⟨quote! "< 'a > :: core :: iter :: DoubleEndedIterator for __SetStorageIter < 'a >", [quote! "fn next_back ( & mut self ) -> :: core :: option :: Option < Self :: Item >"]⟩

def clone_SetStorageIntoIter : Impl := ⟨quote! ":: core :: clone :: Clone for __SetStorageIntoIter", [quote! "fn clone ( & self ) -> Self"]⟩

def iterator_SetStorageIntoIter (E : Toks) : Impl := ⟨quote! ":: core :: iter :: Iterator for __SetStorageIntoIter", [quote! "type Item = #E",
  quote! "fn next ( & mut self ) -> :: core :: option :: Option < Self :: Item >"]⟩

def doubleEndedIterator_SetStorageIntoIter : Impl := ⟨quote! ":: core :: iter :: DoubleEndedIterator for __SetStorageIntoIter", [quote! "fn next_back ( & mut self ) -> :: core :: option :: Option < Self :: Item >"]⟩

def partialEq_SetStorage : Impl := ⟨quote! ":: core :: cmp :: PartialEq for __SetStorage", [quote! "fn eq ( & self , other : & Self ) -> bool"]⟩

def eq_SetStorage : Impl := ⟨quote! ":: core :: cmp :: Eq for __SetStorage", []⟩

def clone_SetStorage : Impl := ⟨quote! ":: core :: clone :: Clone for __SetStorage", [quote! "fn clone ( & self ) -> Self"]⟩

def copy_SetStorage : Impl := ⟨quote! ":: core :: marker :: Copy for __SetStorage", []⟩

def key_Enum (E : Toks) : Impl := ⟨quote! ":: fixed_map :: Key for #E", [quote! "type MapStorage < V > = __MapStorage < V >",
  quote! "type SetStorage = __SetStorage"]⟩

def impls (E : Toks) : List Impl := [mapStorage_MapStorage E, clone_MapStorageIter, iterator_MapStorageIter E, doubleEndedIterator_MapStorageIter, clone_MapStorageKeys, iterator_MapStorageKeys E, doubleEndedIterator_MapStorageKeys, clone_MapStorageValues, iterator_MapStorageValues, doubleEndedIterator_MapStorageValues, iterator_MapStorageIterMut E, doubleEndedIterator_MapStorageIterMut, iterator_MapStorageValuesMut, doubleEndedIterator_MapStorageValuesMut, clone_MapStorageIntoIter, iterator_MapStorageIntoIter E, doubleEndedIterator_MapStorageIntoIter, simpleVacantEntry, simpleOccupiedEntry, vacantEntry_VacantEntry E, occupiedEntry_OccupiedEntry E, partialEq_MapStorage, eq_MapStorage, clone_MapStorage, copy_MapStorage, setStorage_SetStorage E, clone_SetStorageIter, iterator_SetStorageIter E, doubleEndedIterator_SetStorageIter, clone_SetStorageIntoIter, iterator_SetStorageIntoIter E, doubleEndedIterator_SetStorageIntoIter, partialEq_SetStorage, eq_SetStorage, clone_SetStorage, copy_SetStorage, key_Enum E]

end Any

namespace Units

def vacantEntry_VacantEntry (E : Toks) : Impl := ⟨quote! "< 'a , V > :: fixed_map :: map :: VacantEntry < 'a , #E , V > for VacantEntry < 'a , V >", [quote! "fn key ( & self ) -> #E",
  quote! "fn insert ( self , value : V ) -> & 'a mut V"]⟩

def occupiedEntry_OccupiedEntry (E : Toks) : Impl := ⟨quote! "< 'a , V > :: fixed_map :: map :: OccupiedEntry < 'a , #E , V > for OccupiedEntry < 'a , V >", [quote! "fn key ( & self ) -> #E",
  quote! "fn get ( & self ) -> & V",
  quote! "fn get_mut ( & mut self ) -> & mut V",
  quote! "fn into_mut ( self ) -> & 'a mut V",
  quote! "fn insert ( & mut self , value : V ) -> V",
  quote! "fn remove ( self ) -> V"]⟩

def clone_MapStorage : Impl := ⟨quote! "< V > :: core :: clone :: Clone for __MapStorage < V >", [quote! "fn clone ( & self ) -> Self"]⟩

def copy_MapStorage : Impl := ⟨quote! "< V > :: core :: marker :: Copy for __MapStorage < V >", []⟩

def partialEq_MapStorage : Impl := ⟨quote! "< V > :: core :: cmp :: PartialEq for __MapStorage < V >", [quote! "fn eq ( & self , other : & Self ) -> bool"]⟩

def eq_MapStorage : Impl := ⟨quote! "< V > :: core :: cmp :: Eq for __MapStorage < V >", []⟩

def hash_MapStorage : Impl := ⟨quote! "< V > :: core :: hash :: Hash for __MapStorage < V >", [quote! "fn hash < H > ( & self , state : & mut H ) where H : :: core :: hash :: Hasher ,"]⟩

def partialOrd_MapStorage : Impl := ⟨quote! "< V > :: core :: cmp :: PartialOrd for __MapStorage < V >", [quote! "fn partial_cmp ( & self , other : & Self ) -> Option < :: core :: cmp :: Ordering >"]⟩

def ord_MapStorage : Impl := ⟨quote! "< V > :: core :: cmp :: Ord for __MapStorage < V >", [quote! "fn cmp ( & self , other : & Self ) -> :: core :: cmp :: Ordering"]⟩

def mapStorage_MapStorage (E n : Toks) : Impl := ⟨quote! "< V > :: fixed_map :: map :: MapStorage < #E , V > for __MapStorage < V >", [quote! "type Iter < 'a > = :: core :: iter :: FlatMap < :: core :: array :: IntoIter < ( #E , & 'a :: core :: option :: Option < V > ) , #n > , :: core :: option :: Option < ( #E , & 'a V ) > , fn ( ( #E , & 'a :: core :: option :: Option < V > ) ) -> :: core :: option :: Option < ( #E , & 'a V ) > > where V : 'a",
  quote! "type Keys < 'a > = :: core :: iter :: Flatten < :: core :: array :: IntoIter < :: core :: option :: Option < #E > , #n > > where V : 'a",
  quote! "type Values < 'a > = :: core :: iter :: Flatten < :: core :: slice :: Iter < 'a , :: core :: option :: Option < V > > > where V : 'a",
  quote! "type IterMut < 'a > = :: core :: iter :: FlatMap < :: core :: array :: IntoIter < ( #E , & 'a mut :: core :: option :: Option < V > ) , #n > , :: core :: option :: Option < ( #E , & 'a mut V ) > , fn ( ( #E , & 'a mut :: core :: option :: Option < V > ) ) -> :: core :: option :: Option < ( #E , & 'a mut V ) > > where V : 'a",
  quote! "type ValuesMut < 'a > = :: core :: iter :: Flatten < :: core :: slice :: IterMut < 'a , :: core :: option :: Option < V > > > where V : 'a",
  quote! "type IntoIter = :: core :: iter :: FlatMap < :: core :: array :: IntoIter < ( #E , :: core :: option :: Option < V > ) , #n > , :: core :: option :: Option < ( #E , V ) > , fn ( ( #E , :: core :: option :: Option < V > ) ) -> :: core :: option :: Option < ( #E , V ) > >",
  quote! "type Occupied < 'a > = OccupiedEntry < 'a , V > where V : 'a",
  quote! "type Vacant < 'a > = VacantEntry < 'a , V > where V : 'a",
  quote! "fn empty ( ) -> Self",
  quote! "fn len ( & self ) -> usize",
  quote! "fn is_empty ( & self ) -> bool",
  quote! "fn insert ( & mut self , key : #E , value : V ) -> :: core :: option :: Option < V >",
  quote! "fn contains_key ( & self , value : #E ) -> bool",
  quote! "fn get ( & self , value : #E ) -> :: core :: option :: Option < & V >",
  quote! "fn get_mut ( & mut self , value : #E ) -> :: core :: option :: Option < & mut V >",
  quote! "fn remove ( & mut self , value : #E ) -> :: core :: option :: Option < V >",
  quote! "fn retain < F > ( & mut self , mut func : F ) where F : FnMut ( #E , & mut V ) -> bool",
  quote! "fn clear ( & mut self )",
  quote! "fn iter ( & self ) -> Self :: Iter < '_ >",
  quote! "fn keys ( & self ) -> Self :: Keys < '_ >",
  quote! "fn values ( & self ) -> Self :: Values < '_ >",
  quote! "fn iter_mut ( & mut self ) -> Self :: IterMut < '_ >",
  quote! "fn values_mut ( & mut self ) -> Self :: ValuesMut < '_ >",
  quote! "fn into_iter ( self ) -> Self :: IntoIter",
  quote! "fn entry ( & mut self , key : #E ) -> :: fixed_map :: map :: Entry < '_ , Self , #E , V >"]⟩

def partialOrd_SetStorage : Impl := ⟨quote! ":: core :: cmp :: PartialOrd for __SetStorage", [quote! "fn partial_cmp ( & self , other : & Self ) -> Option < :: core :: cmp :: Ordering >"]⟩

def ord_SetStorage : Impl := ⟨quote! ":: core :: cmp :: Ord for __SetStorage", [quote! "fn cmp ( & self , other : & Self ) -> :: core :: cmp :: Ordering"]⟩

def setStorage_SetStorage (E n : Toks) : Impl := ⟨quote! ":: fixed_map :: set :: SetStorage < #E > for __SetStorage", [quote! "type Iter < 'a > = :: core :: iter :: Flatten < :: core :: array :: IntoIter < :: core :: option :: Option < #E > , #n > >",
  quote! "type IntoIter = :: core :: iter :: Flatten < :: core :: array :: IntoIter < :: core :: option :: Option < #E > , #n > >",
  quote! "fn empty ( ) -> Self",
  quote! "fn len ( & self ) -> usize",
  quote! "fn is_empty ( & self ) -> bool",
  quote! "fn insert ( & mut self , value : #E ) -> bool",
  quote! "fn contains ( & self , value : #E ) -> bool",
  quote! "fn remove ( & mut self , value : #E ) -> bool",
  quote! "fn retain < F > ( & mut self , mut f : F ) where F : FnMut ( #E ) -> bool",
  quote! "fn clear ( & mut self )",
  quote! "fn iter ( & self ) -> Self :: Iter < '_ >",
  quote! "fn into_iter ( self ) -> Self :: IntoIter"]⟩

def key_Enum (E : Toks) : Impl := ⟨quote! ":: fixed_map :: Key for #E", [quote! "type MapStorage < V > = __MapStorage < V >",
  quote! "type SetStorage = __SetStorage"]⟩

def rawStorage_SetStorage (ty : Toks) : Impl := ⟨quote! ":: fixed_map :: raw :: RawStorage for __SetStorage", [quote! "type Value = #ty",
  quote! "fn as_raw ( & self ) -> #ty",
  quote! "fn from_raw ( data : #ty ) -> __SetStorage"]⟩

def impls (E n : Toks) : List Impl := [vacantEntry_VacantEntry E, occupiedEntry_OccupiedEntry E, clone_MapStorage, copy_MapStorage, partialEq_MapStorage, eq_MapStorage, hash_MapStorage, partialOrd_MapStorage, ord_MapStorage, mapStorage_MapStorage E n, partialOrd_SetStorage, ord_SetStorage, setStorage_SetStorage E n, key_Enum E]

def bitsetImpls (E n ty : Toks) : List Impl := [vacantEntry_VacantEntry E, occupiedEntry_OccupiedEntry E, clone_MapStorage, copy_MapStorage, partialEq_MapStorage, eq_MapStorage, hash_MapStorage, partialOrd_MapStorage, ord_MapStorage, mapStorage_MapStorage E n, partialOrd_SetStorage, ord_SetStorage, setStorage_SetStorage E n, rawStorage_SetStorage ty, key_Enum E]

end Units

end FixedMap.Impls
