import Verif.Model.RustSyntax

/-!
# The text of src/

The files as they are, without comments and empty lines.
-/

set_option autoImplicit false

namespace FixedMap.Rust.Text

/-- `src/option_bucket.rs`. -/
def optionBucket : Toks := rust! r#"
#![allow(unsafe_code)]
#![allow(clippy::should_implement_trait, clippy::must_use_candidate)]
use core::mem;
use crate::map::{OccupiedEntry, VacantEntry};
#[cfg(test)]
mod tests;
pub struct SomeBucket<'a, T> {
    outer: &'a mut Option<T>,
}
impl<'a, T> SomeBucket<'a, T> {
    #[inline]
    pub unsafe fn new_unchecked(opt: &'a mut Option<T>) -> Self {
        debug_assert!(
            opt.is_some(),
            "Undefined Behavior: `None` value passed to `SomeBucket::new_unchecked`."
        );
        SomeBucket { outer: opt }
    }
    #[inline]
    pub fn new(opt: &'a mut Option<T>) -> Option<Self> {
        if opt.is_some() {
            unsafe { Some(Self::new_unchecked(opt)) }
        } else {
            None
        }
    }
    #[inline]
    pub fn as_ref(&self) -> &T {
        unsafe { self.outer.as_ref().unwrap_unchecked() }
    }
    #[inline]
    pub fn as_mut(&mut self) -> &mut T {
        unsafe { self.outer.as_mut().unwrap_unchecked() }
    }
    #[inline]
    pub fn into_mut(self) -> &'a mut T {
        unsafe { self.outer.as_mut().unwrap_unchecked() }
    }
    #[inline]
    pub fn replace(&mut self, value: T) -> T {
        mem::replace(self.as_mut(), value)
    }
    #[inline]
    pub fn take(self) -> T {
        unsafe { self.outer.take().unwrap_unchecked() }
    }
}
impl<'a, K, V> OccupiedEntry<'a, K, V> for SomeBucket<'a, V>
where
    K: Default,
{
    #[inline]
    fn key(&self) -> K {
        K::default()
    }
    #[inline]
    fn get(&self) -> &V {
        SomeBucket::as_ref(self)
    }
    #[inline]
    fn get_mut(&mut self) -> &mut V {
        SomeBucket::as_mut(self)
    }
    #[inline]
    fn into_mut(self) -> &'a mut V {
        SomeBucket::into_mut(self)
    }
    #[inline]
    fn insert(&mut self, value: V) -> V {
        SomeBucket::replace(self, value)
    }
    #[inline]
    fn remove(self) -> V {
        SomeBucket::take(self)
    }
}
pub struct NoneBucket<'a, T> {
    outer: &'a mut Option<T>,
}
impl<'a, T> NoneBucket<'a, T> {
    #[inline]
    pub unsafe fn new_unchecked(opt: &'a mut Option<T>) -> Self {
        debug_assert!(
            opt.is_none(),
            "Undefined Behavior: `Some` value passed to `NoneBucket::new_unchecked`."
        );
        NoneBucket { outer: opt }
    }
    #[inline]
    pub fn new(opt: &'a mut Option<T>) -> Option<Self> {
        if opt.is_none() {
            unsafe { Some(Self::new_unchecked(opt)) }
        } else {
            None
        }
    }
    #[inline]
    pub fn insert(self, value: T) -> &'a mut T {
        unsafe {
            let outer: *mut Option<T> = self.outer;
            outer.write(Some(value));
        }
        unsafe { self.outer.as_mut().unwrap_unchecked() }
    }
}
impl<'a, K, V> VacantEntry<'a, K, V> for NoneBucket<'a, V>
where
    K: Default,
{
    #[inline]
    fn key(&self) -> K {
        K::default()
    }
    #[inline]
    fn insert(self, value: V) -> &'a mut V {
        NoneBucket::insert(self, value)
    }
}
pub enum OptionBucket<'a, T> {
    Some(SomeBucket<'a, T>),
    None(NoneBucket<'a, T>),
}
impl<'a, T> OptionBucket<'a, T> {
    #[inline]
    pub fn new(opt: &'a mut Option<T>) -> Self {
        if opt.is_some() {
            unsafe { OptionBucket::Some(SomeBucket::new_unchecked(opt)) }
        } else {
            unsafe { OptionBucket::None(NoneBucket::new_unchecked(opt)) }
        }
    }
}
"#

/-- `src/map/storage/boolean.rs`. -/
def mapBoolean : Toks := rust! r#"
#![allow(missing_copy_implementations)]
use core::iter;
use core::option;
use crate::map::{Entry, MapStorage, OccupiedEntry, VacantEntry};
use crate::option_bucket::{NoneBucket, OptionBucket, SomeBucket};
const TRUE_BIT: u8 = 0b10;
const FALSE_BIT: u8 = 0b01;
type Iter<'a, V> = iter::Chain<
    iter::Map<option::Iter<'a, V>, fn(&'a V) -> (bool, &'a V)>,
    iter::Map<option::Iter<'a, V>, fn(&'a V) -> (bool, &'a V)>,
>;
type Values<'a, V> = iter::Chain<option::Iter<'a, V>, option::Iter<'a, V>>;
type IterMut<'a, V> = iter::Chain<
    iter::Map<option::IterMut<'a, V>, fn(&'a mut V) -> (bool, &'a mut V)>,
    iter::Map<option::IterMut<'a, V>, fn(&'a mut V) -> (bool, &'a mut V)>,
>;
type ValuesMut<'a, V> = iter::Chain<option::IterMut<'a, V>, option::IterMut<'a, V>>;
type IntoIter<V> = iter::Chain<
    iter::Map<option::IntoIter<V>, fn(V) -> (bool, V)>,
    iter::Map<option::IntoIter<V>, fn(V) -> (bool, V)>,
>;
#[derive(Clone, Copy, PartialEq, Eq)]
pub struct BooleanMapStorage<V> {
    t: Option<V>,
    f: Option<V>,
}
pub struct Keys {
    bits: u8,
}
impl Clone for Keys {
    #[inline]
    fn clone(&self) -> Keys {
        Keys { bits: self.bits }
    }
}
impl Iterator for Keys {
    type Item = bool;
    #[inline]
    fn next(&mut self) -> Option<Self::Item> {
        if self.bits & TRUE_BIT != 0 {
            self.bits &= !TRUE_BIT;
            return Some(true);
        }
        if self.bits & FALSE_BIT != 0 {
            self.bits &= !FALSE_BIT;
            return Some(false);
        }
        None
    }
    #[inline]
    fn size_hint(&self) -> (usize, Option<usize>) {
        let len = self.bits.count_ones() as usize;
        (len, Some(len))
    }
}
impl DoubleEndedIterator for Keys {
    #[inline]
    fn next_back(&mut self) -> Option<Self::Item> {
        if self.bits & FALSE_BIT != 0 {
            self.bits &= !FALSE_BIT;
            return Some(false);
        }
        if self.bits & TRUE_BIT != 0 {
            self.bits &= !TRUE_BIT;
            return Some(true);
        }
        None
    }
}
impl ExactSizeIterator for Keys {
    #[inline]
    fn len(&self) -> usize {
        self.bits.count_ones() as usize
    }
}
pub struct Vacant<'a, V> {
    key: bool,
    inner: NoneBucket<'a, V>,
}
pub struct Occupied<'a, V> {
    key: bool,
    inner: SomeBucket<'a, V>,
}
impl<'a, V> VacantEntry<'a, bool, V> for Vacant<'a, V> {
    #[inline]
    fn key(&self) -> bool {
        self.key
    }
    #[inline]
    fn insert(self, value: V) -> &'a mut V {
        self.inner.insert(value)
    }
}
impl<'a, V> OccupiedEntry<'a, bool, V> for Occupied<'a, V> {
    #[inline]
    fn key(&self) -> bool {
        self.key
    }
    #[inline]
    fn get(&self) -> &V {
        self.inner.as_ref()
    }
    #[inline]
    fn get_mut(&mut self) -> &mut V {
        self.inner.as_mut()
    }
    #[inline]
    fn into_mut(self) -> &'a mut V {
        self.inner.into_mut()
    }
    #[inline]
    fn insert(&mut self, value: V) -> V {
        self.inner.replace(value)
    }
    #[inline]
    fn remove(self) -> V {
        self.inner.take()
    }
}
impl<V> MapStorage<bool, V> for BooleanMapStorage<V> {
    type Iter<'this>
        = Iter<'this, V>
    where
        V: 'this;
    type Keys<'this>
        = Keys
    where
        V: 'this;
    type Values<'this>
        = Values<'this, V>
    where
        V: 'this;
    type IterMut<'this>
        = IterMut<'this, V>
    where
        V: 'this;
    type ValuesMut<'this>
        = ValuesMut<'this, V>
    where
        V: 'this;
    type IntoIter = IntoIter<V>;
    type Occupied<'this>
        = Occupied<'this, V>
    where
        V: 'this;
    type Vacant<'this>
        = Vacant<'this, V>
    where
        V: 'this;
    #[inline]
    fn empty() -> Self {
        Self {
            t: Option::default(),
            f: Option::default(),
        }
    }
    #[inline]
    fn len(&self) -> usize {
        usize::from(self.t.is_some()).saturating_add(usize::from(self.f.is_some()))
    }
    #[inline]
    fn is_empty(&self) -> bool {
        self.t.is_none() && self.f.is_none()
    }
    #[inline]
    fn insert(&mut self, key: bool, value: V) -> Option<V> {
        if key {
            self.t.replace(value)
        } else {
            self.f.replace(value)
        }
    }
    #[inline]
    fn contains_key(&self, key: bool) -> bool {
        if key {
            self.t.is_some()
        } else {
            self.f.is_some()
        }
    }
    #[inline]
    fn get(&self, key: bool) -> Option<&V> {
        if key {
            self.t.as_ref()
        } else {
            self.f.as_ref()
        }
    }
    #[inline]
    fn get_mut(&mut self, key: bool) -> Option<&mut V> {
        if key {
            self.t.as_mut()
        } else {
            self.f.as_mut()
        }
    }
    #[inline]
    fn remove(&mut self, key: bool) -> Option<V> {
        if key {
            self.t.take()
        } else {
            self.f.take()
        }
    }
    #[inline]
    fn retain<F>(&mut self, mut func: F)
    where
        F: FnMut(bool, &mut V) -> bool,
    {
        if let Some(t) = self.t.as_mut() {
            if !func(true, t) {
                self.t = None;
            }
        }
        if let Some(f) = self.f.as_mut() {
            if !func(false, f) {
                self.f = None;
            }
        }
    }
    #[inline]
    fn clear(&mut self) {
        self.t = None;
        self.f = None;
    }
    #[inline]
    fn iter(&self) -> Self::Iter<'_> {
        let map: fn(_) -> _ = |v| (true, v);
        let a = self.t.iter().map(map);
        let map: fn(_) -> _ = |v| (false, v);
        let b = self.f.iter().map(map);
        a.chain(b)
    }
    #[inline]
    fn keys(&self) -> Self::Keys<'_> {
        Keys {
            bits: if self.t.is_some() { TRUE_BIT } else { 0 }
                | if self.f.is_some() { FALSE_BIT } else { 0 },
        }
    }
    #[inline]
    fn values(&self) -> Self::Values<'_> {
        self.t.iter().chain(self.f.iter())
    }
    #[inline]
    fn iter_mut(&mut self) -> Self::IterMut<'_> {
        let map: fn(_) -> _ = |v| (true, v);
        let a = self.t.iter_mut().map(map);
        let map: fn(_) -> _ = |v| (false, v);
        let b = self.f.iter_mut().map(map);
        a.chain(b)
    }
    #[inline]
    fn values_mut(&mut self) -> Self::ValuesMut<'_> {
        self.t.iter_mut().chain(self.f.iter_mut())
    }
    #[inline]
    fn into_iter(self) -> Self::IntoIter {
        let map: fn(_) -> _ = |v| (true, v);
        let a = self.t.into_iter().map(map);
        let map: fn(_) -> _ = |v| (false, v);
        let b = self.f.into_iter().map(map);
        a.chain(b)
    }
    #[inline]
    fn entry(&mut self, key: bool) -> Entry<'_, Self, bool, V> {
        if key {
            match OptionBucket::new(&mut self.t) {
                OptionBucket::Some(inner) => Entry::Occupied(Occupied { key, inner }),
                OptionBucket::None(inner) => Entry::Vacant(Vacant { key, inner }),
            }
        } else {
            match OptionBucket::new(&mut self.f) {
                OptionBucket::Some(inner) => Entry::Occupied(Occupied { key, inner }),
                OptionBucket::None(inner) => Entry::Vacant(Vacant { key, inner }),
            }
        }
    }
}
"#

/-- `src/map/storage/singleton.rs`. -/
def mapSingleton : Toks := rust! r#"
use crate::map::{Entry, MapStorage};
use crate::option_bucket::{NoneBucket, OptionBucket, SomeBucket};
#[repr(transparent)]
#[derive(Clone, Copy)]
pub struct SingletonMapStorage<V> {
    inner: Option<V>,
}
impl<V> PartialEq for SingletonMapStorage<V>
where
    V: PartialEq,
{
    #[inline]
    fn eq(&self, other: &Self) -> bool {
        self.inner == other.inner
    }
}
impl<V> Eq for SingletonMapStorage<V> where V: Eq {}
impl<K, V> MapStorage<K, V> for SingletonMapStorage<V>
where
    K: Default,
{
    type Iter<'this>
        = core::option::IntoIter<(K, &'this V)>
    where
        V: 'this;
    type Keys<'this>
        = core::option::IntoIter<K>
    where
        V: 'this;
    type Values<'this>
        = core::option::Iter<'this, V>
    where
        V: 'this;
    type IterMut<'this>
        = core::option::IntoIter<(K, &'this mut V)>
    where
        V: 'this;
    type ValuesMut<'this>
        = core::option::IterMut<'this, V>
    where
        V: 'this;
    type IntoIter = core::option::IntoIter<(K, V)>;
    type Occupied<'this>
        = SomeBucket<'this, V>
    where
        V: 'this;
    type Vacant<'this>
        = NoneBucket<'this, V>
    where
        V: 'this;
    #[inline]
    fn empty() -> Self {
        Self {
            inner: Option::default(),
        }
    }
    #[inline]
    fn len(&self) -> usize {
        usize::from(self.inner.is_some())
    }
    #[inline]
    fn is_empty(&self) -> bool {
        self.inner.is_none()
    }
    #[inline]
    fn insert(&mut self, _: K, value: V) -> Option<V> {
        self.inner.replace(value)
    }
    #[inline]
    fn contains_key(&self, _: K) -> bool {
        self.inner.is_some()
    }
    #[inline]
    fn get(&self, _: K) -> Option<&V> {
        self.inner.as_ref()
    }
    #[inline]
    fn get_mut(&mut self, _: K) -> Option<&mut V> {
        self.inner.as_mut()
    }
    #[inline]
    fn remove(&mut self, _: K) -> Option<V> {
        self.inner.take()
    }
    #[inline]
    fn retain<F>(&mut self, mut func: F)
    where
        F: FnMut(K, &mut V) -> bool,
    {
        if let Some(val) = self.inner.as_mut() {
            if !func(K::default(), val) {
                self.inner = None;
            }
        }
    }
    #[inline]
    fn clear(&mut self) {
        self.inner = None;
    }
    #[inline]
    fn iter(&self) -> Self::Iter<'_> {
        self.inner.as_ref().map(|v| (K::default(), v)).into_iter()
    }
    #[inline]
    fn keys(&self) -> Self::Keys<'_> {
        Some(K::default()).into_iter()
    }
    #[inline]
    fn values(&self) -> Self::Values<'_> {
        self.inner.iter()
    }
    #[inline]
    fn iter_mut(&mut self) -> Self::IterMut<'_> {
        self.inner.as_mut().map(|v| (K::default(), v)).into_iter()
    }
    #[inline]
    fn values_mut(&mut self) -> Self::ValuesMut<'_> {
        self.inner.iter_mut()
    }
    #[inline]
    fn into_iter(self) -> Self::IntoIter {
        self.inner.map(|v| (K::default(), v)).into_iter()
    }
    #[inline]
    fn entry(&mut self, _key: K) -> Entry<'_, Self, K, V> {
        match OptionBucket::new(&mut self.inner) {
            OptionBucket::Some(some) => Entry::Occupied(some),
            OptionBucket::None(none) => Entry::Vacant(none),
        }
    }
}
"#

/-- `src/map/storage/option.rs`. -/
def mapOption : Toks := rust! r#"
use core::iter;
use core::option;
use crate::map::{Entry, MapStorage, OccupiedEntry, VacantEntry};
use crate::option_bucket::{NoneBucket, OptionBucket, SomeBucket};
use crate::Key;
type Iter<'a, K, V> = iter::Chain<
    iter::Map<
        <<K as Key>::MapStorage<V> as MapStorage<K, V>>::Iter<'a>,
        fn((K, &'a V)) -> (Option<K>, &'a V),
    >,
    iter::Map<option::Iter<'a, V>, fn(&'a V) -> (Option<K>, &'a V)>,
>;
type Keys<'a, K, V> = iter::Chain<
    iter::Map<<<K as Key>::MapStorage<V> as MapStorage<K, V>>::Keys<'a>, fn(K) -> Option<K>>,
    option::IntoIter<Option<K>>,
>;
type Values<'a, K, V> =
    iter::Chain<<<K as Key>::MapStorage<V> as MapStorage<K, V>>::Values<'a>, option::Iter<'a, V>>;
type IterMut<'a, K, V> = iter::Chain<
    iter::Map<
        <<K as Key>::MapStorage<V> as MapStorage<K, V>>::IterMut<'a>,
        fn((K, &'a mut V)) -> (Option<K>, &'a mut V),
    >,
    iter::Map<option::IterMut<'a, V>, fn(&'a mut V) -> (Option<K>, &'a mut V)>,
>;
type ValuesMut<'a, K, V> = iter::Chain<
    <<K as Key>::MapStorage<V> as MapStorage<K, V>>::ValuesMut<'a>,
    option::IterMut<'a, V>,
>;
type IntoIter<K, V> = iter::Chain<
    iter::Map<
        <<K as Key>::MapStorage<V> as MapStorage<K, V>>::IntoIter,
        fn((K, V)) -> (Option<K>, V),
    >,
    iter::Map<option::IntoIter<V>, fn(V) -> (Option<K>, V)>,
>;
pub struct OptionMapStorage<K, V>
where
    K: Key,
{
    some: K::MapStorage<V>,
    none: Option<V>,
}
impl<K, V> Clone for OptionMapStorage<K, V>
where
    K: Key,
    V: Clone,
    K::MapStorage<V>: Clone,
{
    #[inline]
    fn clone(&self) -> Self {
        Self {
            some: self.some.clone(),
            none: self.none.clone(),
        }
    }
}
impl<K, V> Copy for OptionMapStorage<K, V>
where
    K: Key,
    V: Copy,
    K::MapStorage<V>: Copy,
{
}
impl<K, V> PartialEq for OptionMapStorage<K, V>
where
    K: Key,
    K::MapStorage<V>: PartialEq,
    V: PartialEq,
{
    #[inline]
    fn eq(&self, other: &Self) -> bool {
        self.none == other.none && self.some == other.some
    }
}
impl<K, V> Eq for OptionMapStorage<K, V>
where
    K: Key,
    K::MapStorage<V>: Eq,
    V: Eq,
{
}
pub enum Vacant<'a, K: 'a, V>
where
    K: Key,
{
    None(NoneBucket<'a, V>),
    Some(<K::MapStorage<V> as MapStorage<K, V>>::Vacant<'a>),
}
pub enum Occupied<'a, K: 'a, V>
where
    K: Key,
{
    None(SomeBucket<'a, V>),
    Some(<K::MapStorage<V> as MapStorage<K, V>>::Occupied<'a>),
}
impl<'a, K, V> VacantEntry<'a, Option<K>, V> for Vacant<'a, K, V>
where
    K: Key,
{
    #[inline]
    fn key(&self) -> Option<K> {
        match self {
            Vacant::None(_) => None,
            Vacant::Some(entry) => Some(entry.key()),
        }
    }
    #[inline]
    fn insert(self, value: V) -> &'a mut V {
        match self {
            Vacant::None(entry) => entry.insert(value),
            Vacant::Some(entry) => entry.insert(value),
        }
    }
}
impl<'a, K, V> OccupiedEntry<'a, Option<K>, V> for Occupied<'a, K, V>
where
    K: Key,
{
    #[inline]
    fn key(&self) -> Option<K> {
        match self {
            Occupied::None(_) => None,
            Occupied::Some(entry) => Some(entry.key()),
        }
    }
    #[inline]
    fn get(&self) -> &V {
        match self {
            Occupied::None(entry) => entry.as_ref(),
            Occupied::Some(entry) => entry.get(),
        }
    }
    #[inline]
    fn get_mut(&mut self) -> &mut V {
        match self {
            Occupied::None(entry) => entry.as_mut(),
            Occupied::Some(entry) => entry.get_mut(),
        }
    }
    #[inline]
    fn into_mut(self) -> &'a mut V {
        match self {
            Occupied::None(entry) => entry.into_mut(),
            Occupied::Some(entry) => entry.into_mut(),
        }
    }
    #[inline]
    fn insert(&mut self, value: V) -> V {
        match self {
            Occupied::None(entry) => entry.replace(value),
            Occupied::Some(entry) => entry.insert(value),
        }
    }
    #[inline]
    fn remove(self) -> V {
        match self {
            Occupied::None(entry) => entry.take(),
            Occupied::Some(entry) => entry.remove(),
        }
    }
}
impl<K, V> MapStorage<Option<K>, V> for OptionMapStorage<K, V>
where
    K: Key,
{
    type Iter<'this>
        = Iter<'this, K, V>
    where
        K: 'this,
        V: 'this;
    type Keys<'this>
        = Keys<'this, K, V>
    where
        K: 'this,
        V: 'this;
    type Values<'this>
        = Values<'this, K, V>
    where
        K: 'this,
        V: 'this;
    type IterMut<'this>
        = IterMut<'this, K, V>
    where
        K: 'this,
        V: 'this;
    type ValuesMut<'this>
        = ValuesMut<'this, K, V>
    where
        K: 'this,
        V: 'this;
    type IntoIter = IntoIter<K, V>;
    type Occupied<'this>
        = Occupied<'this, K, V>
    where
        K: 'this,
        V: 'this;
    type Vacant<'this>
        = Vacant<'this, K, V>
    where
        K: 'this,
        V: 'this;
    #[inline]
    fn empty() -> Self {
        Self {
            some: K::MapStorage::empty(),
            none: Option::default(),
        }
    }
    #[inline]
    fn len(&self) -> usize {
        self.some.len() + usize::from(self.none.is_some())
    }
    #[inline]
    fn is_empty(&self) -> bool {
        self.some.is_empty() && self.none.is_none()
    }
    #[inline]
    fn insert(&mut self, key: Option<K>, value: V) -> Option<V> {
        match key {
            Some(key) => self.some.insert(key, value),
            None => self.none.replace(value),
        }
    }
    #[inline]
    fn contains_key(&self, key: Option<K>) -> bool {
        match key {
            Some(key) => self.some.contains_key(key),
            None => self.none.is_some(),
        }
    }
    #[inline]
    fn get(&self, key: Option<K>) -> Option<&V> {
        match key {
            Some(key) => self.some.get(key),
            None => self.none.as_ref(),
        }
    }
    #[inline]
    fn get_mut(&mut self, key: Option<K>) -> Option<&mut V> {
        match key {
            Some(key) => self.some.get_mut(key),
            None => self.none.as_mut(),
        }
    }
    #[inline]
    fn remove(&mut self, key: Option<K>) -> Option<V> {
        match key {
            Some(key) => self.some.remove(key),
            None => self.none.take(),
        }
    }
    #[inline]
    fn retain<F>(&mut self, mut func: F)
    where
        F: FnMut(Option<K>, &mut V) -> bool,
    {
        self.some.retain(|k, v| func(Some(k), v));
        if let Some(none) = self.none.as_mut() {
            if !func(None, none) {
                self.none = None;
            }
        }
    }
    #[inline]
    fn clear(&mut self) {
        self.some.clear();
        self.none = None;
    }
    #[inline]
    fn iter(&self) -> Self::Iter<'_> {
        let map: fn(_) -> _ = |(k, b)| (Some(k), b);
        let a = self.some.iter().map(map);
        let map: fn(_) -> _ = |v| (None, v);
        let b = self.none.iter().map(map);
        a.chain(b)
    }
    #[inline]
    fn keys(&self) -> Self::Keys<'_> {
        let map: fn(_) -> _ = |k| Some(k);
        self.some
            .keys()
            .map(map)
            .chain(self.none.is_some().then_some(None::<K>))
    }
    #[inline]
    fn values(&self) -> Self::Values<'_> {
        self.some.values().chain(self.none.iter())
    }
    #[inline]
    fn iter_mut(&mut self) -> Self::IterMut<'_> {
        let map: fn(_) -> _ = |(k, b)| (Some(k), b);
        let a = self.some.iter_mut().map(map);
        let map: fn(_) -> _ = |v| (None, v);
        let b = self.none.iter_mut().map(map);
        a.chain(b)
    }
    #[inline]
    fn values_mut(&mut self) -> Self::ValuesMut<'_> {
        self.some.values_mut().chain(self.none.iter_mut())
    }
    #[inline]
    fn into_iter(self) -> Self::IntoIter {
        let map: fn(_) -> _ = |(k, b)| (Some(k), b);
        let a = self.some.into_iter().map(map);
        let map: fn(_) -> _ = |v| (None, v);
        let b = self.none.into_iter().map(map);
        a.chain(b)
    }
    #[inline]
    fn entry(&mut self, key: Option<K>) -> Entry<'_, Self, Option<K>, V> {
        match key {
            Some(key) => match self.some.entry(key) {
                Entry::Occupied(entry) => Entry::Occupied(Occupied::Some(entry)),
                Entry::Vacant(entry) => Entry::Vacant(Vacant::Some(entry)),
            },
            None => match OptionBucket::new(&mut self.none) {
                OptionBucket::Some(some) => Entry::Occupied(Occupied::None(some)),
                OptionBucket::None(none) => Entry::Vacant(Vacant::None(none)),
            },
        }
    }
}
"#

/-- `src/map/storage/hashbrown.rs`. -/
def mapHashbrown : Toks := rust! r#"
use core::hash::Hash;
use core::iter;
use crate::map::{Entry, MapStorage, OccupiedEntry, VacantEntry};
type S = ::hashbrown::hash_map::DefaultHashBuilder;
type Occupied<'a, K, V> = ::hashbrown::hash_map::OccupiedEntry<'a, K, V, S>;
type Vacant<'a, K, V> = ::hashbrown::hash_map::VacantEntry<'a, K, V, S>;
type HashMapEntry<'a, K, V> = ::hashbrown::hash_map::Entry<'a, K, V, S>;
#[repr(transparent)]
pub struct HashbrownMapStorage<K, V> {
    inner: ::hashbrown::HashMap<K, V>,
}
impl<K, V> Clone for HashbrownMapStorage<K, V>
where
    K: Clone,
    V: Clone,
{
    #[inline]
    fn clone(&self) -> Self {
        Self {
            inner: self.inner.clone(),
        }
    }
}
impl<K, V> PartialEq for HashbrownMapStorage<K, V>
where
    K: Eq + Hash,
    V: PartialEq,
{
    #[inline]
    fn eq(&self, other: &Self) -> bool {
        self.inner.eq(&other.inner)
    }
}
impl<K, V> Eq for HashbrownMapStorage<K, V>
where
    K: Eq + Hash,
    V: Eq,
{
}
impl<'a, K, V> OccupiedEntry<'a, K, V> for Occupied<'a, K, V>
where
    K: Copy,
{
    #[inline]
    fn key(&self) -> K {
        *self.key()
    }
    #[inline]
    fn get(&self) -> &V {
        self.get()
    }
    #[inline]
    fn get_mut(&mut self) -> &mut V {
        self.get_mut()
    }
    #[inline]
    fn into_mut(self) -> &'a mut V {
        self.into_mut()
    }
    #[inline]
    fn insert(&mut self, value: V) -> V {
        self.insert(value)
    }
    #[inline]
    fn remove(self) -> V {
        self.remove()
    }
}
impl<'a, K, V> VacantEntry<'a, K, V> for Vacant<'a, K, V>
where
    K: Copy + Hash,
{
    #[inline]
    fn key(&self) -> K {
        *self.key()
    }
    #[inline]
    fn insert(self, value: V) -> &'a mut V {
        self.insert(value)
    }
}
impl<K, V> MapStorage<K, V> for HashbrownMapStorage<K, V>
where
    K: Copy + Eq + Hash,
{
    type Iter<'this>
        = iter::Map<
        ::hashbrown::hash_map::Iter<'this, K, V>,
        fn((&'this K, &'this V)) -> (K, &'this V),
    >
    where
        K: 'this,
        V: 'this;
    type Keys<'this>
        = iter::Copied<::hashbrown::hash_map::Keys<'this, K, V>>
    where
        K: 'this,
        V: 'this;
    type Values<'this>
        = ::hashbrown::hash_map::Values<'this, K, V>
    where
        K: 'this,
        V: 'this;
    type IterMut<'this>
        = iter::Map<
        ::hashbrown::hash_map::IterMut<'this, K, V>,
        fn((&'this K, &'this mut V)) -> (K, &'this mut V),
    >
    where
        K: 'this,
        V: 'this;
    type ValuesMut<'this>
        = ::hashbrown::hash_map::ValuesMut<'this, K, V>
    where
        K: 'this,
        V: 'this;
    type IntoIter = ::hashbrown::hash_map::IntoIter<K, V>;
    type Occupied<'this>
        = Occupied<'this, K, V>
    where
        K: 'this,
        V: 'this;
    type Vacant<'this>
        = Vacant<'this, K, V>
    where
        K: 'this,
        V: 'this;
    #[inline]
    fn empty() -> Self {
        Self {
            inner: ::hashbrown::HashMap::new(),
        }
    }
    #[inline]
    fn len(&self) -> usize {
        self.inner.len()
    }
    #[inline]
    fn is_empty(&self) -> bool {
        self.inner.is_empty()
    }
    #[inline]
    fn insert(&mut self, key: K, value: V) -> Option<V> {
        self.inner.insert(key, value)
    }
    #[inline]
    fn contains_key(&self, key: K) -> bool {
        self.inner.contains_key(&key)
    }
    #[inline]
    fn get(&self, key: K) -> Option<&V> {
        self.inner.get(&key)
    }
    #[inline]
    fn get_mut(&mut self, key: K) -> Option<&mut V> {
        self.inner.get_mut(&key)
    }
    #[inline]
    fn remove(&mut self, key: K) -> Option<V> {
        self.inner.remove(&key)
    }
    #[inline]
    fn retain<F>(&mut self, mut func: F)
    where
        F: FnMut(K, &mut V) -> bool,
    {
        self.inner.retain(|&k, v| func(k, v));
    }
    #[inline]
    fn clear(&mut self) {
        self.inner.clear();
    }
    #[inline]
    fn iter(&self) -> Self::Iter<'_> {
        let map: fn(_) -> _ = |(k, v): (&K, &V)| (*k, v);
        self.inner.iter().map(map)
    }
    #[inline]
    fn keys(&self) -> Self::Keys<'_> {
        self.inner.keys().copied()
    }
    #[inline]
    fn values(&self) -> Self::Values<'_> {
        self.inner.values()
    }
    #[inline]
    fn iter_mut(&mut self) -> Self::IterMut<'_> {
        let map: fn(_) -> _ = |(k, v): (&K, &mut V)| (*k, v);
        self.inner.iter_mut().map(map)
    }
    #[inline]
    fn values_mut(&mut self) -> Self::ValuesMut<'_> {
        self.inner.values_mut()
    }
    #[inline]
    fn into_iter(self) -> Self::IntoIter {
        self.inner.into_iter()
    }
    #[inline]
    fn entry(&mut self, key: K) -> Entry<'_, Self, K, V> {
        match self.inner.entry(key) {
            HashMapEntry::Occupied(entry) => Entry::Occupied(entry),
            HashMapEntry::Vacant(entry) => Entry::Vacant(entry),
        }
    }
}
"#

/-- `src/set/storage/boolean.rs`. -/
def setBoolean : Toks := rust! r#"
#![allow(missing_copy_implementations)]
use core::mem;
use crate::set::SetStorage;
const TRUE_BIT: u8 = 0b10;
const FALSE_BIT: u8 = 0b01;
#[derive(Clone, Copy, PartialEq, Eq)]
pub struct BooleanSetStorage {
    bits: u8,
}
pub struct Iter {
    bits: u8,
}
impl Clone for Iter {
    #[inline]
    fn clone(&self) -> Iter {
        Iter { bits: self.bits }
    }
}
impl Iterator for Iter {
    type Item = bool;
    #[inline]
    fn next(&mut self) -> Option<Self::Item> {
        if self.bits & TRUE_BIT != 0 {
            self.bits &= !TRUE_BIT;
            return Some(true);
        }
        if self.bits & FALSE_BIT != 0 {
            self.bits &= !FALSE_BIT;
            return Some(false);
        }
        None
    }
    #[inline]
    fn size_hint(&self) -> (usize, Option<usize>) {
        let len = self.bits.count_ones() as usize;
        (len, Some(len))
    }
}
impl DoubleEndedIterator for Iter {
    #[inline]
    fn next_back(&mut self) -> Option<Self::Item> {
        if self.bits & FALSE_BIT != 0 {
            self.bits &= !FALSE_BIT;
            return Some(false);
        }
        if self.bits & TRUE_BIT != 0 {
            self.bits &= !TRUE_BIT;
            return Some(true);
        }
        None
    }
}
impl ExactSizeIterator for Iter {
    #[inline]
    fn len(&self) -> usize {
        self.bits.count_ones() as usize
    }
}
impl SetStorage<bool> for BooleanSetStorage {
    type Iter<'this> = Iter;
    type IntoIter = Iter;
    #[inline]
    fn empty() -> Self {
        Self { bits: 0 }
    }
    #[inline]
    fn len(&self) -> usize {
        usize::from(self.bits & TRUE_BIT != 0)
            .saturating_add(usize::from(self.bits & FALSE_BIT != 0))
    }
    #[inline]
    fn is_empty(&self) -> bool {
        self.bits == 0
    }
    #[inline]
    fn insert(&mut self, value: bool) -> bool {
        let update = self.bits | to_bits(value);
        test(mem::replace(&mut self.bits, update), value)
    }
    #[inline]
    fn contains(&self, value: bool) -> bool {
        test(self.bits, value)
    }
    #[inline]
    fn remove(&mut self, value: bool) -> bool {
        let value = to_bits(value);
        let update = self.bits & !value;
        mem::replace(&mut self.bits, update) != 0
    }
    #[inline]
    fn retain<F>(&mut self, mut f: F)
    where
        F: FnMut(bool) -> bool,
    {
        if test(self.bits, true) && !f(true) {
            self.bits &= !TRUE_BIT;
        }
        if test(self.bits, false) && !f(false) {
            self.bits &= !FALSE_BIT;
        }
    }
    #[inline]
    fn clear(&mut self) {
        self.bits = 0;
    }
    #[inline]
    fn iter(&self) -> Self::Iter<'_> {
        Iter { bits: self.bits }
    }
    #[inline]
    fn into_iter(self) -> Self::IntoIter {
        Iter { bits: self.bits }
    }
}
#[inline]
const fn test(bits: u8, value: bool) -> bool {
    bits & to_bits(value) != 0
}
#[inline]
const fn to_bits(value: bool) -> u8 {
    if value {
        TRUE_BIT
    } else {
        FALSE_BIT
    }
}
"#

/-- `src/set/storage/singleton.rs`. -/
def setSingleton : Toks := rust! r#"
use core::mem;
use crate::set::SetStorage;
#[repr(transparent)]
#[derive(Clone, Copy, PartialEq, Eq, PartialOrd, Ord, Hash)]
pub struct SingletonSetStorage {
    is_set: bool,
}
impl<T> SetStorage<T> for SingletonSetStorage
where
    T: Default + Clone,
{
    type Iter<'this> = core::option::IntoIter<T>;
    type IntoIter = core::option::IntoIter<T>;
    #[inline]
    fn empty() -> Self {
        Self { is_set: false }
    }
    #[inline]
    fn len(&self) -> usize {
        usize::from(self.is_set)
    }
    #[inline]
    fn is_empty(&self) -> bool {
        !self.is_set
    }
    #[inline]
    fn insert(&mut self, _: T) -> bool {
        !mem::replace(&mut self.is_set, true)
    }
    #[inline]
    fn contains(&self, _: T) -> bool {
        self.is_set
    }
    #[inline]
    fn remove(&mut self, _: T) -> bool {
        mem::replace(&mut self.is_set, false)
    }
    #[inline]
    fn retain<F>(&mut self, mut func: F)
    where
        F: FnMut(T) -> bool,
    {
        self.is_set = func(T::default());
    }
    #[inline]
    fn clear(&mut self) {
        self.is_set = false;
    }
    #[inline]
    fn iter(&self) -> Self::Iter<'_> {
        self.is_set.then_some(T::default()).into_iter()
    }
    #[inline]
    fn into_iter(self) -> Self::IntoIter {
        self.is_set.then_some(T::default()).into_iter()
    }
}
"#

/-- `src/set/storage/option.rs`. -/
def setOption : Toks := rust! r#"
use core::iter;
use core::mem;
use core::option;
use crate::set::SetStorage;
use crate::Key;
type Iter<'a, T> = iter::Chain<
    iter::Map<<<T as Key>::SetStorage as SetStorage<T>>::Iter<'a>, fn(T) -> Option<T>>,
    option::IntoIter<Option<T>>,
>;
type IntoIter<T> = iter::Chain<
    iter::Map<<<T as Key>::SetStorage as SetStorage<T>>::IntoIter, fn(T) -> Option<T>>,
    option::IntoIter<Option<T>>,
>;
pub struct OptionSetStorage<T>
where
    T: Key,
{
    some: T::SetStorage,
    none: bool,
}
impl<T> Clone for OptionSetStorage<T>
where
    T: Key,
    T::SetStorage: Clone,
{
    #[inline]
    fn clone(&self) -> Self {
        Self {
            some: self.some.clone(),
            none: self.none,
        }
    }
}
impl<T> Copy for OptionSetStorage<T>
where
    T: Key,
    T::SetStorage: Copy,
{
}
impl<T> PartialEq for OptionSetStorage<T>
where
    T: Key,
    T::SetStorage: PartialEq,
{
    #[inline]
    fn eq(&self, other: &Self) -> bool {
        self.none == other.none && self.some == other.some
    }
}
impl<T> Eq for OptionSetStorage<T>
where
    T: Key,
    T::SetStorage: Eq,
{
}
impl<T> SetStorage<Option<T>> for OptionSetStorage<T>
where
    T: Key,
{
    type Iter<'this>
        = Iter<'this, T>
    where
        T: 'this;
    type IntoIter = IntoIter<T>;
    #[inline]
    fn empty() -> Self {
        Self {
            some: T::SetStorage::empty(),
            none: false,
        }
    }
    #[inline]
    fn len(&self) -> usize {
        self.some.len() + usize::from(self.none)
    }
    #[inline]
    fn is_empty(&self) -> bool {
        self.some.is_empty() && self.none
    }
    #[inline]
    fn insert(&mut self, value: Option<T>) -> bool {
        match value {
            Some(value) => self.some.insert(value),
            None => mem::replace(&mut self.none, true),
        }
    }
    #[inline]
    fn contains(&self, value: Option<T>) -> bool {
        match value {
            Some(key) => self.some.contains(key),
            None => self.none,
        }
    }
    #[inline]
    fn remove(&mut self, key: Option<T>) -> bool {
        match key {
            Some(key) => self.some.remove(key),
            None => mem::replace(&mut self.none, false),
        }
    }
    #[inline]
    fn retain<F>(&mut self, mut func: F)
    where
        F: FnMut(Option<T>) -> bool,
    {
        self.some.retain(|value| func(Some(value)));
        if self.none {
            self.none = func(None);
        }
    }
    #[inline]
    fn clear(&mut self) {
        self.some.clear();
        self.none = false;
    }
    #[inline]
    fn iter(&self) -> Self::Iter<'_> {
        let map: fn(_) -> _ = Some;
        self.some
            .iter()
            .map(map)
            .chain(self.none.then_some(None::<T>))
    }
    #[inline]
    fn into_iter(self) -> Self::IntoIter {
        let map: fn(_) -> _ = Some;
        self.some
            .into_iter()
            .map(map)
            .chain(self.none.then_some(None::<T>))
    }
}
"#

/-- `src/set/storage/hashbrown.rs`. -/
def setHashbrown : Toks := rust! r#"
use core::hash::Hash;
use core::iter;
use crate::set::SetStorage;
#[repr(transparent)]
pub struct HashbrownSetStorage<T> {
    inner: ::hashbrown::HashSet<T>,
}
impl<T> Clone for HashbrownSetStorage<T>
where
    T: Clone,
{
    #[inline]
    fn clone(&self) -> Self {
        HashbrownSetStorage {
            inner: self.inner.clone(),
        }
    }
}
impl<T> PartialEq for HashbrownSetStorage<T>
where
    T: Eq + Hash,
{
    #[inline]
    fn eq(&self, other: &Self) -> bool {
        self.inner.eq(&other.inner)
    }
}
impl<T> Eq for HashbrownSetStorage<T> where T: Eq + Hash {}
impl<T> SetStorage<T> for HashbrownSetStorage<T>
where
    T: Copy + Eq + Hash,
{
    type Iter<'this>
        = iter::Copied<::hashbrown::hash_set::Iter<'this, T>>
    where
        T: 'this;
    type IntoIter = ::hashbrown::hash_set::IntoIter<T>;
    #[inline]
    fn empty() -> Self {
        Self {
            inner: ::hashbrown::HashSet::new(),
        }
    }
    #[inline]
    fn len(&self) -> usize {
        self.inner.len()
    }
    #[inline]
    fn is_empty(&self) -> bool {
        self.inner.is_empty()
    }
    #[inline]
    fn insert(&mut self, value: T) -> bool {
        self.inner.insert(value)
    }
    #[inline]
    fn contains(&self, value: T) -> bool {
        self.inner.contains(&value)
    }
    #[inline]
    fn remove(&mut self, value: T) -> bool {
        self.inner.remove(&value)
    }
    #[inline]
    fn retain<F>(&mut self, mut func: F)
    where
        F: FnMut(T) -> bool,
    {
        self.inner.retain(|&value| func(value));
    }
    #[inline]
    fn clear(&mut self) {
        self.inner.clear();
    }
    #[inline]
    fn iter(&self) -> Self::Iter<'_> {
        self.inner.iter().copied()
    }
    #[inline]
    fn into_iter(self) -> Self::IntoIter {
        self.inner.into_iter()
    }
}
"#

/-- `src/map/entry.rs`. -/
def mapEntry : Toks := rust! r#"
use crate::map::{MapStorage, OccupiedEntry, VacantEntry};
pub enum Entry<'a, S: 'a, K, V>
where
    S: MapStorage<K, V>,
{
    Occupied(S::Occupied<'a>),
    Vacant(S::Vacant<'a>),
}
impl<'a, S: 'a, K, V> Entry<'a, S, K, V>
where
    S: MapStorage<K, V>,
{
    #[inline]
    pub fn or_insert(self, default: V) -> &'a mut V {
        match self {
            Entry::Occupied(entry) => entry.into_mut(),
            Entry::Vacant(entry) => entry.insert(default),
        }
    }
    #[inline]
    pub fn or_insert_with<F>(self, default: F) -> &'a mut V
    where
        F: FnOnce() -> V,
    {
        match self {
            Entry::Occupied(entry) => entry.into_mut(),
            Entry::Vacant(entry) => entry.insert(default()),
        }
    }
    #[inline]
    pub fn or_insert_with_key<F>(self, default: F) -> &'a mut V
    where
        F: FnOnce(K) -> V,
    {
        match self {
            Entry::Occupied(entry) => entry.into_mut(),
            Entry::Vacant(entry) => {
                let value = default(entry.key());
                entry.insert(value)
            }
        }
    }
    #[inline]
    pub fn key(&self) -> K {
        match self {
            Entry::Occupied(entry) => entry.key(),
            Entry::Vacant(entry) => entry.key(),
        }
    }
    #[inline]
    #[must_use]
    pub fn and_modify<F>(self, f: F) -> Self
    where
        F: FnOnce(&mut V),
    {
        match self {
            Entry::Occupied(mut entry) => {
                f(entry.get_mut());
                Entry::Occupied(entry)
            }
            Entry::Vacant(entry) => Entry::Vacant(entry),
        }
    }
    #[inline]
    pub fn or_default(self) -> &'a mut V
    where
        V: Default,
    {
        match self {
            Entry::Occupied(entry) => entry.into_mut(),
            Entry::Vacant(entry) => entry.insert(Default::default()),
        }
    }
}
"#

/-- `src/map.rs`. -/
def map : Toks := rust! r#"
mod entry;
pub use self::entry::Entry;
pub(crate) mod storage;
pub use self::storage::{MapStorage, OccupiedEntry, VacantEntry};
use core::cmp::{Ord, Ordering, PartialOrd};
use core::fmt;
use core::hash::{Hash, Hasher};
use crate::Key;
pub type Iter<'a, K, V> = <<K as Key>::MapStorage<V> as MapStorage<K, V>>::Iter<'a>;
pub type Keys<'a, K, V> = <<K as Key>::MapStorage<V> as MapStorage<K, V>>::Keys<'a>;
pub type Values<'a, K, V> = <<K as Key>::MapStorage<V> as MapStorage<K, V>>::Values<'a>;
pub type IterMut<'a, K, V> = <<K as Key>::MapStorage<V> as MapStorage<K, V>>::IterMut<'a>;
pub type ValuesMut<'a, K, V> = <<K as Key>::MapStorage<V> as MapStorage<K, V>>::ValuesMut<'a>;
pub type IntoIter<K, V> = <<K as Key>::MapStorage<V> as MapStorage<K, V>>::IntoIter;
#[repr(transparent)]
pub struct Map<K, V>
where
    K: Key,
{
    storage: K::MapStorage<V>,
}
impl<K, V> Map<K, V>
where
    K: Key,
{
    #[inline]
    #[must_use]
    pub fn new() -> Map<K, V> {
        Map {
            storage: K::MapStorage::empty(),
        }
    }
    #[inline]
    pub fn iter(&self) -> Iter<'_, K, V> {
        self.storage.iter()
    }
    #[inline]
    pub fn keys(&self) -> Keys<'_, K, V> {
        self.storage.keys()
    }
    #[inline]
    pub fn values(&self) -> Values<'_, K, V> {
        self.storage.values()
    }
    #[inline]
    pub fn iter_mut(&mut self) -> IterMut<'_, K, V> {
        self.storage.iter_mut()
    }
    #[inline]
    pub fn values_mut(&mut self) -> ValuesMut<'_, K, V> {
        self.storage.values_mut()
    }
    #[inline]
    pub fn contains_key(&self, key: K) -> bool {
        self.storage.contains_key(key)
    }
    #[inline]
    pub fn get(&self, key: K) -> Option<&V> {
        self.storage.get(key)
    }
    #[inline]
    pub fn get_mut(&mut self, key: K) -> Option<&mut V> {
        self.storage.get_mut(key)
    }
    #[inline]
    pub fn insert(&mut self, key: K, value: V) -> Option<V> {
        self.storage.insert(key, value)
    }
    #[inline]
    pub fn remove(&mut self, key: K) -> Option<V> {
        self.storage.remove(key)
    }
    #[inline]
    pub fn retain<F>(&mut self, f: F)
    where
        F: FnMut(K, &mut V) -> bool,
    {
        self.storage.retain(f);
    }
    #[inline]
    pub fn clear(&mut self) {
        self.storage.clear();
    }
    #[inline]
    pub fn is_empty(&self) -> bool {
        self.storage.is_empty()
    }
    #[inline]
    pub fn len(&self) -> usize {
        self.storage.len()
    }
    #[inline]
    pub fn entry(&mut self, key: K) -> Entry<'_, K::MapStorage<V>, K, V> {
        K::MapStorage::entry(&mut self.storage, key)
    }
}
impl<K, V> Clone for Map<K, V>
where
    K: Key,
    K::MapStorage<V>: Clone,
{
    #[inline]
    fn clone(&self) -> Map<K, V> {
        Map {
            storage: self.storage.clone(),
        }
    }
}
impl<K, V> Copy for Map<K, V>
where
    K: Key,
    K::MapStorage<V>: Copy,
{
}
impl<K, V> Default for Map<K, V>
where
    K: Key,
{
    #[inline]
    fn default() -> Self {
        Self::new()
    }
}
impl<K, V> fmt::Debug for Map<K, V>
where
    K: Key + fmt::Debug,
    V: fmt::Debug,
{
    #[inline]
    fn fmt(&self, f: &mut fmt::Formatter<'_>) -> fmt::Result {
        f.debug_map().entries(self.iter()).finish()
    }
}
impl<K, V> PartialEq for Map<K, V>
where
    K: Key,
    K::MapStorage<V>: PartialEq,
{
    #[inline]
    fn eq(&self, other: &Self) -> bool {
        self.storage == other.storage
    }
}
impl<K, V> Eq for Map<K, V>
where
    K: Key,
    K::MapStorage<V>: Eq,
{
}
impl<K, V> Hash for Map<K, V>
where
    K: Key,
    K::MapStorage<V>: Hash,
{
    #[inline]
    fn hash<H>(&self, state: &mut H)
    where
        H: Hasher,
    {
        self.storage.hash(state);
    }
}
impl<K, V> PartialOrd for Map<K, V>
where
    K: Key,
    K::MapStorage<V>: PartialOrd,
{
    #[inline]
    fn partial_cmp(&self, other: &Self) -> Option<Ordering> {
        self.storage.partial_cmp(&other.storage)
    }
    #[inline]
    fn lt(&self, other: &Self) -> bool {
        self.storage.lt(&other.storage)
    }
    #[inline]
    fn le(&self, other: &Self) -> bool {
        self.storage.le(&other.storage)
    }
    #[inline]
    fn gt(&self, other: &Self) -> bool {
        self.storage.gt(&other.storage)
    }
    #[inline]
    fn ge(&self, other: &Self) -> bool {
        self.storage.ge(&other.storage)
    }
}
impl<K, V> Ord for Map<K, V>
where
    K: Key,
    K::MapStorage<V>: Ord,
{
    #[inline]
    fn cmp(&self, other: &Self) -> Ordering {
        self.storage.cmp(&other.storage)
    }
    #[inline]
    fn max(self, other: Self) -> Self {
        Self {
            storage: self.storage.max(other.storage),
        }
    }
    #[inline]
    fn min(self, other: Self) -> Self {
        Self {
            storage: self.storage.min(other.storage),
        }
    }
    #[inline]
    fn clamp(self, min: Self, max: Self) -> Self {
        Self {
            storage: self.storage.clamp(min.storage, max.storage),
        }
    }
}
impl<'a, K, V> IntoIterator for &'a Map<K, V>
where
    K: Key,
{
    type Item = (K, &'a V);
    type IntoIter = Iter<'a, K, V>;
    #[inline]
    fn into_iter(self) -> Self::IntoIter {
        self.iter()
    }
}
impl<'a, K, V> IntoIterator for &'a mut Map<K, V>
where
    K: Key,
{
    type Item = (K, &'a mut V);
    type IntoIter = IterMut<'a, K, V>;
    #[inline]
    fn into_iter(self) -> Self::IntoIter {
        self.iter_mut()
    }
}
impl<K, V> IntoIterator for Map<K, V>
where
    K: Key,
{
    type Item = (K, V);
    type IntoIter = IntoIter<K, V>;
    #[inline]
    fn into_iter(self) -> Self::IntoIter {
        self.storage.into_iter()
    }
}
impl<K, V> FromIterator<(K, V)> for Map<K, V>
where
    K: Key,
{
    #[inline]
    fn from_iter<T>(iter: T) -> Self
    where
        T: IntoIterator<Item = (K, V)>,
    {
        let mut map = Self::new();
        for (k, v) in iter {
            map.insert(k, v);
        }
        map
    }
}
#[cfg(feature = "serde")]
impl<K, V> serde::Serialize for Map<K, V>
where
    K: Key + serde::Serialize,
    V: serde::Serialize,
{
    #[inline]
    fn serialize<S>(&self, serializer: S) -> Result<S::Ok, S::Error>
    where
        S: serde::Serializer,
    {
        use serde::ser::SerializeMap as _;
        let mut map = serializer.serialize_map(Some(self.len()))?;
        for (k, v) in self {
            map.serialize_entry(&k, v)?;
        }
        map.end()
    }
}
#[cfg(feature = "serde")]
impl<'de, K, V> serde::de::Deserialize<'de> for Map<K, V>
where
    K: Key + serde::de::Deserialize<'de>,
    V: serde::Deserialize<'de>,
{
    #[inline]
    fn deserialize<D>(deserializer: D) -> Result<Self, D::Error>
    where
        D: serde::Deserializer<'de>,
    {
        struct MapVisitor<K, V>(core::marker::PhantomData<(K, V)>);
        impl<'de, K, V> serde::de::Visitor<'de> for MapVisitor<K, V>
        where
            K: Key + serde::de::Deserialize<'de>,
            V: serde::Deserialize<'de>,
        {
            type Value = Map<K, V>;
            fn expecting(&self, formatter: &mut fmt::Formatter<'_>) -> fmt::Result {
                formatter.write_str("a map")
            }
            #[inline]
            fn visit_map<T>(self, mut visitor: T) -> Result<Self::Value, T::Error>
            where
                T: serde::de::MapAccess<'de>,
            {
                let mut map = Map::new();
                while let Some((key, value)) = visitor.next_entry()? {
                    map.insert(key, value);
                }
                Ok(map)
            }
        }
        deserializer.deserialize_map(MapVisitor(core::marker::PhantomData))
    }
}
"#

/-- `src/set.rs`. -/
def set : Toks := rust! r#"
use core::cmp::Ordering;
use core::fmt;
use core::hash::{Hash, Hasher};
pub mod intersection;
pub mod storage;
pub use self::intersection::Intersection;
pub use self::storage::SetStorage;
use crate::raw::RawStorage;
use crate::Key;
pub type Iter<'a, T> = <<T as Key>::SetStorage as SetStorage<T>>::Iter<'a>;
pub type IntoIter<T> = <<T as Key>::SetStorage as SetStorage<T>>::IntoIter;
#[repr(transparent)]
pub struct Set<T>
where
    T: Key,
{
    storage: T::SetStorage,
}
impl<T> Set<T>
where
    T: Key,
{
    #[inline]
    #[must_use]
    pub fn new() -> Set<T> {
        Set {
            storage: T::SetStorage::empty(),
        }
    }
    #[inline]
    pub fn iter(&self) -> Iter<'_, T> {
        self.storage.iter()
    }
    #[inline]
    pub fn contains(&self, value: T) -> bool {
        self.storage.contains(value)
    }
    #[inline]
    pub fn insert(&mut self, value: T) -> bool {
        self.storage.insert(value)
    }
    #[inline]
    pub fn remove(&mut self, value: T) -> bool {
        self.storage.remove(value)
    }
    #[inline]
    pub fn retain<F>(&mut self, f: F)
    where
        F: FnMut(T) -> bool,
    {
        self.storage.retain(f);
    }
    #[inline]
    pub fn clear(&mut self) {
        self.storage.clear();
    }
    #[inline]
    pub fn is_empty(&self) -> bool {
        self.storage.is_empty()
    }
    #[inline]
    pub fn len(&self) -> usize {
        self.storage.len()
    }
    #[inline]
    pub fn intersection<'a>(&'a self, other: &'a Set<T>) -> Intersection<'a, T> {
        if self.len() <= other.len() {
            Intersection {
                iter: self.iter(),
                other,
            }
        } else {
            Intersection {
                iter: other.iter(),
                other: self,
            }
        }
    }
}
impl<T> Set<T>
where
    T: Key,
    T::SetStorage: RawStorage,
{
    #[inline]
    pub fn as_raw(&self) -> <T::SetStorage as RawStorage>::Value {
        self.storage.as_raw()
    }
    #[inline]
    pub fn from_raw(raw: <T::SetStorage as RawStorage>::Value) -> Self {
        Self {
            storage: <T::SetStorage as RawStorage>::from_raw(raw),
        }
    }
}
impl<T> Clone for Set<T>
where
    T: Key,
    T::SetStorage: Clone,
{
    #[inline]
    fn clone(&self) -> Set<T> {
        Set {
            storage: self.storage.clone(),
        }
    }
}
impl<T> Copy for Set<T>
where
    T: Key,
    T::SetStorage: Copy,
{
}
impl<T> Default for Set<T>
where
    T: Key,
{
    #[inline]
    fn default() -> Self {
        Self::new()
    }
}
impl<T> fmt::Debug for Set<T>
where
    T: Key + fmt::Debug,
{
    #[inline]
    fn fmt(&self, f: &mut fmt::Formatter<'_>) -> fmt::Result {
        f.debug_set().entries(self.iter()).finish()
    }
}
impl<T> PartialEq for Set<T>
where
    T: Key,
    T::SetStorage: PartialEq,
{
    #[inline]
    fn eq(&self, other: &Self) -> bool {
        self.storage == other.storage
    }
}
impl<T> Eq for Set<T>
where
    T: Key,
    T::SetStorage: Eq,
{
}
impl<T> Hash for Set<T>
where
    T: Key,
    T::SetStorage: Hash,
{
    #[inline]
    fn hash<H>(&self, state: &mut H)
    where
        H: Hasher,
    {
        self.storage.hash(state);
    }
}
impl<T> PartialOrd for Set<T>
where
    T: Key,
    T::SetStorage: PartialOrd,
{
    #[inline]
    fn partial_cmp(&self, other: &Self) -> Option<Ordering> {
        self.storage.partial_cmp(&other.storage)
    }
    #[inline]
    fn lt(&self, other: &Self) -> bool {
        self.storage.lt(&other.storage)
    }
    #[inline]
    fn le(&self, other: &Self) -> bool {
        self.storage.le(&other.storage)
    }
    #[inline]
    fn gt(&self, other: &Self) -> bool {
        self.storage.gt(&other.storage)
    }
    #[inline]
    fn ge(&self, other: &Self) -> bool {
        self.storage.ge(&other.storage)
    }
}
impl<T> Ord for Set<T>
where
    T: Key,
    T::SetStorage: Ord,
{
    #[inline]
    fn cmp(&self, other: &Self) -> Ordering {
        self.storage.cmp(&other.storage)
    }
    #[inline]
    fn max(self, other: Self) -> Self {
        Self {
            storage: self.storage.max(other.storage),
        }
    }
    #[inline]
    fn min(self, other: Self) -> Self {
        Self {
            storage: self.storage.min(other.storage),
        }
    }
    #[inline]
    fn clamp(self, min: Self, max: Self) -> Self {
        Self {
            storage: self.storage.clamp(min.storage, max.storage),
        }
    }
}
impl<'a, T> IntoIterator for &'a Set<T>
where
    T: Key,
{
    type Item = T;
    type IntoIter = Iter<'a, T>;
    #[inline]
    fn into_iter(self) -> Self::IntoIter {
        self.iter()
    }
}
impl<T> IntoIterator for Set<T>
where
    T: Key,
{
    type Item = T;
    type IntoIter = IntoIter<T>;
    #[inline]
    fn into_iter(self) -> Self::IntoIter {
        self.storage.into_iter()
    }
}
impl<T> FromIterator<T> for Set<T>
where
    T: Key,
{
    #[inline]
    fn from_iter<I>(iter: I) -> Self
    where
        I: IntoIterator<Item = T>,
    {
        let mut set = Self::new();
        for value in iter {
            set.insert(value);
        }
        set
    }
}
#[cfg(feature = "serde")]
impl<T> serde::Serialize for Set<T>
where
    T: Key + serde::Serialize,
{
    #[inline]
    fn serialize<S>(&self, serializer: S) -> Result<S::Ok, S::Error>
    where
        S: serde::Serializer,
    {
        use serde::ser::SerializeSeq as _;
        let mut seq = serializer.serialize_seq(Some(self.len()))?;
        for v in self {
            seq.serialize_element(&v)?;
        }
        seq.end()
    }
}
#[cfg(feature = "serde")]
impl<'de, T> serde::de::Deserialize<'de> for Set<T>
where
    T: Key + serde::de::Deserialize<'de>,
{
    #[inline]
    fn deserialize<D>(deserializer: D) -> Result<Self, D::Error>
    where
        D: serde::Deserializer<'de>,
    {
        struct SeqVisitor<T>(core::marker::PhantomData<T>);
        impl<'de, T> serde::de::Visitor<'de> for SeqVisitor<T>
        where
            T: Key + serde::de::Deserialize<'de>,
        {
            type Value = Set<T>;
            fn expecting(&self, formatter: &mut fmt::Formatter<'_>) -> fmt::Result {
                formatter.write_str("a sequence")
            }
            #[inline]
            fn visit_seq<V>(self, mut visitor: V) -> Result<Self::Value, V::Error>
            where
                V: serde::de::SeqAccess<'de>,
            {
                let mut set = Set::new();
                while let Some(elem) = visitor.next_element()? {
                    set.insert(elem);
                }
                Ok(set)
            }
        }
        deserializer.deserialize_seq(SeqVisitor(core::marker::PhantomData))
    }
}
impl<T, const N: usize> From<[T; N]> for Set<T>
where
    T: Key,
{
    fn from(arr: [T; N]) -> Self {
        Self::from_iter(arr)
    }
}
"#

/-- `src/set/intersection.rs`. -/
def setIntersection : Toks := rust! r#"
use core::fmt;
use super::{Iter, Key, Set};
#[must_use = "this returns the intersection as an iterator, \
              without modifying either input set"]
pub struct Intersection<'a, T: 'a + Key> {
    pub(super) iter: Iter<'a, T>,
    pub(super) other: &'a Set<T>,
}
impl<T: Key> Clone for Intersection<'_, T> {
    #[inline]
    fn clone(&self) -> Self {
        Intersection {
            iter: self.iter.clone(),
            ..*self
        }
    }
}
impl<T> Iterator for Intersection<'_, T>
where
    T: Key,
{
    type Item = T;
    #[inline]
    fn next(&mut self) -> Option<T> {
        loop {
            let elt = self.iter.next()?;
            if self.other.contains(elt) {
                return Some(elt);
            }
        }
    }
    #[inline]
    fn size_hint(&self) -> (usize, Option<usize>) {
        let (_, upper) = self.iter.size_hint();
        (0, upper)
    }
    #[inline]
    fn fold<B, F>(self, init: B, mut f: F) -> B
    where
        Self: Sized,
        F: FnMut(B, Self::Item) -> B,
    {
        self.iter.fold(init, |acc, elt| {
            if self.other.contains(elt) {
                f(acc, elt)
            } else {
                acc
            }
        })
    }
}
impl<T> fmt::Debug for Intersection<'_, T>
where
    T: fmt::Debug + Key,
{
    fn fmt(&self, f: &mut fmt::Formatter<'_>) -> fmt::Result {
        f.debug_list().entries(self.clone()).finish()
    }
}
"#

/-- `src/macro_support.rs`. -/
def macroSupport : Toks := rust! r#"
#![allow(clippy::missing_inline_in_public_items)]
use core::cmp::Ordering;
#[inline]
fn flatten<T>(value: (usize, &Option<T>)) -> Option<(usize, &T)> {
    match value {
        (index, Some(value)) => Some((index, value)),
        _ => None,
    }
}
pub fn __storage_iterator_partial_cmp<'a, A, B, T>(a: A, b: B) -> Option<Ordering>
where
    A: IntoIterator<Item = &'a Option<T>>,
    B: IntoIterator<Item = &'a Option<T>>,
    T: 'a + PartialOrd<T>,
{
    let a = a.into_iter().enumerate().filter_map(flatten);
    let b = b.into_iter().enumerate().filter_map(flatten);
    a.partial_cmp(b)
}
pub fn __storage_iterator_cmp<'a, A, B, T>(a: A, b: B) -> Ordering
where
    A: IntoIterator<Item = &'a Option<T>>,
    B: IntoIterator<Item = &'a Option<T>>,
    T: 'a + Ord,
{
    let a = a.into_iter().enumerate().filter_map(flatten);
    let b = b.into_iter().enumerate().filter_map(flatten);
    a.cmp(b)
}
#[inline]
fn filter_bool(&(_, value): &(usize, &bool)) -> bool {
    *value
}
pub fn __storage_iterator_partial_cmp_bool<'a, A, B>(a: A, b: B) -> Option<Ordering>
where
    A: IntoIterator<Item = &'a bool>,
    B: IntoIterator<Item = &'a bool>,
{
    let a = a.into_iter().enumerate().filter(filter_bool);
    let b = b.into_iter().enumerate().filter(filter_bool);
    a.partial_cmp(b)
}
pub fn __storage_iterator_cmp_bool<'a, A, B>(a: A, b: B) -> Ordering
where
    A: IntoIterator<Item = &'a bool>,
    B: IntoIterator<Item = &'a bool>,
{
    let a = a.into_iter().enumerate().filter(filter_bool);
    let b = b.into_iter().enumerate().filter(filter_bool);
    a.cmp(b)
}
"#

end FixedMap.Rust.Text
